import Verif.Lemmas.Accept
import Verif.Lemmas.ExReach
import Verif.Props.C23

/-!
# C61: a call succeeds exactly if it is legal

`Profile` (Verif/Spec/Legal.lean) lists what the model description says about an FMU: the variables with their types and when they
may be set, the numbers of states and event indicators, and the capabilities. `Args` says that the arguments of a call agree with it.
C01 and C02 state the modes in which each function is allowed. Together they decide whether a call succeeds: nothing else the importer
has done before, and no value it has set, can make a legal call fail or an illegal one pass.
-/

set_option linter.unusedSectionVars false

namespace Verif

namespace FMI2
variable {F D : Type} [Arith F] [HasInf F] {m : Model F D} {p : Profile F D}

/-- **C61** for FMI 2.0: a call other than `fmi2DoStep` that returns, returns `fmi2OK` exactly if the function is allowed in the current
mode and its arguments agree with the model description. Resource needs its resource file, and Stair must not be asked for another event
when its counter has reached 10. -/
theorem C61 (h : Describes m p) {fuel : Nat} {w w' : World F D} {op : Op F} {s o} (hn : p.needs w.inst.ctx) (hd : op.fn ≠ .doStep)
    (ho : op.fn = .newDiscreteStates → ¬p.over w.inst.mv.data) (e : step m fuel w op = .ret (w', s, o)) :
    s = .OK ↔ w.inst.ctx.state ∈ Spec.allowedIn op.fn ∧ Args m p w op :=
  step_okIff h.lawful h.ref.eff.okOrError hn hd ho _ e

/-- **C61** for `fmi2DoStep`: after any history that does not restore an FMU state, a communication step that starts at the expected
communication point, has a positive size and ends at or before the stop time does not fail: it returns `fmi2OK`, or `fmi2Discard` if the
FMU asks to end the simulation (C24). C23 says that all other steps are refused. -/
theorem C61_doStep {D : Type} {m : Model XRat D} {p : Profile XRat D} (hm : Describes m p)
    {name typ guid resource functions loggingOn mem c l w₀}
    (hn : instantiate m name typ guid resource functions loggingOn mem = (some c, l))
    (h₀ : w₀.Initial c) {fuel fuel' : Nat} {ops : List (Op XRat)} {w w' outs}
    (hrun : run m fuel w₀ ops = .ret (w, outs)) (hops : ∀ op ∈ ops, ∀ i, op ≠ .setFMUstate i)
    (hs : w.inst.ctx.state ∈ Spec.allowedIn .doStep) (ho : ¬p.over w.inst.mv.data)
    {ccp h : XRat} (ha : (Clock.new.run2 ops outs).Accepts ccp h) {s o}
    (e : step m fuel' w (.doStep ccp h) = .ret (w', s, o)) : s = .OK ∨ s = .Discard := by
  have hok := hm.ref.eff.okOrError
  have h1 := run_clock hok ops hops _ hrun
  have h2 : c.clock = .new := by
    have hn := hn
    unfold instantiate at hn
    split at hn
    · cases hn
    · cases hn
    · exact createModelInstance_clock hn
  simp only [h₀.inst, h2] at h1
  rw [← h1] at ha
  obtain ⟨k1, k2, k3⟩ := ha.checks
  simp only [step, World.run, doStep, begin, beginFunction] at e
  obtain ⟨⟨c', s', u⟩, e1, e⟩ := Outcome.bind_eq_ret.1 e
  cases e
  rw [if_pos (show allowed w.inst.ctx MASK_DoStep = true from (allowed_fn _ .doStep).2 hs), if_neg (by simpa [Comp.clock] using k1), if_neg (by simpa using k2),
    if_neg (by simpa [Comp.clock] using k3)] at e1
  obtain ⟨n, -, hl⟩ := Loop.of_eq hok e1
  obtain ⟨od, hon⟩ := hm.ongoing
  have hr : Reachable m typ w := ⟨_, _, _, _, _, _, _, _, _, _, _, _, hn, h₀, hrun⟩
  obtain ⟨hlen, hinv⟩ := hr.ready od hm.ref
  have hst : w.inst.ctx.state = .stepComplete := by simpa [Spec.allowedIn] using hs
  have hconf : od.Configured w.inst := hinv.resolve_left (by rw [hst]; simp [Mode.early])
  have := hl.accepted hm.lawful hon (hconf.ready hlen) ho
  rcases hl.status with h | h | h
  · exact .inl h
  · exact .inr h
  · exact absurd h this

/-- Non-vacuity: BouncingBall in Step Mode. Reading height and velocity is legal; the restitution coefficient may be set; the velocity
may not, and the position of the ball cannot be read as an integer. -/
example : ∃ w outs, Ex.run2 (BouncingBall.model : Model XRat _) .coSimulation (Ex.init2 ++ [.doStep (.fin 0) (.fin (1/10))]) = .ret (w, outs) ∧
    Ex.allOK outs = true ∧ w.inst.ctx.state ∈ Spec.allowedIn .getReal ∧
    Args BouncingBall.model .bouncingBall w (.getReal (some [1, 3]) 2 (some [.nan, .nan])) ∧
    Args BouncingBall.model .bouncingBall w (.setReal (some [6]) 1 (some [.fin (1/2)])) ∧
    ¬Args BouncingBall.model .bouncingBall w (.setReal (some [3]) 1 (some [.fin 0])) ∧
    ¬Args BouncingBall.model .bouncingBall w (.getInteger (some [1]) 1 (some [0])) := by
  obtain ⟨⟨w, outs⟩, e, h⟩ := Outcome.exists_of_is (r := Ex.run2 (BouncingBall.model : Model XRat _) .coSimulation
    (Ex.init2 ++ [.doStep (.fin 0) (.fin (1/10))])) (p := fun x => Ex.allOK x.2 && decide (x.1.inst.ctx.state = .stepComplete) &&
      decide (x.1.inst.ctx.typ = .coSimulation)) (by decide +kernel)
  simp only [Bool.and_eq_true, decide_eq_true_eq] at h
  obtain ⟨⟨h1, h2⟩, h3⟩ := h
  refine ⟨w, outs, e, h1, by rw [h2]; decide, ⟨?_, by simp⟩, ?_, ?_, ?_⟩
  · intro i hi
    match i, hi with
    | 0, _ => exact ⟨1, ⟨_, rfl, rfl⟩, .state, by simp [Profile.bouncingBall]⟩
    | 1, _ => exact ⟨3, ⟨_, rfl, rfl⟩, .state, by simp [Profile.bouncingBall]⟩
  · intro i hi
    match i, hi with
    | 0, _ => exact ⟨6, _, ⟨_, rfl, rfl⟩, ⟨_, rfl, rfl⟩, .discrete, by simp [Profile.bouncingBall], fun h => by simp [h3] at h, trivial⟩
  · intro h
    obtain ⟨r, x, ⟨l, hl, hr⟩, -, a, ha, ha', -⟩ := h 0 (by decide)
    cases hl; cases hr
    simp [Profile.bouncingBall] at ha
    subst ha
    simp [Access.allows, h2] at ha'
  · rintro ⟨h, -⟩
    obtain ⟨r, -, a, ha⟩ := h 0 (by decide)
    simp [Profile.bouncingBall] at ha

/-- Non-vacuity of `C61_doStep`: after a step of BouncingBall from 0 to 1/10 with the stop time 1, a step from 1/10 to 1 is accepted. -/
example : ∃ w outs, Ex.run2 (BouncingBall.model : Model XRat _) .coSimulation [.setupExperiment (.fin 0) true (.fin 1),
      .enterInitializationMode, .exitInitializationMode, .doStep (.fin 0) (.fin (1/10))] = .ret (w, outs) ∧
    w.inst.ctx.state ∈ Spec.allowedIn .doStep ∧
    (Clock.new.run2 [.setupExperiment (.fin 0) true (.fin 1), .enterInitializationMode, .exitInitializationMode,
      .doStep (.fin 0) (.fin (1/10))] outs).Accepts (.fin (1/10)) (.fin (9/10)) := by
  obtain ⟨⟨w, outs⟩, e, h⟩ := Outcome.exists_of_is (r := Ex.run2 (BouncingBall.model : Model XRat _) .coSimulation
    [.setupExperiment (.fin 0) true (.fin 1), .enterInitializationMode, .exitInitializationMode, .doStep (.fin 0) (.fin (1/10))])
    (p := fun x => decide (x.1.inst.ctx.state = .stepComplete) && decide (x.2 = [(.OK, .unit), (.OK, .unit), (.OK, .unit), (.OK, .unit)]))
    (by decide +kernel)
  simp only [Bool.and_eq_true, decide_eq_true_eq] at h
  obtain ⟨h1, rfl⟩ := h
  refine ⟨w, _, e, by rw [h1]; decide, .mk (e := 1/10) ?_ (.refl _) (by decide +kernel) (.inr ⟨1, rfl, .inl (by decide +kernel)⟩)⟩
  decide +kernel

end FMI2

namespace FMI3
variable {F D : Type} [Arith F] [HasInf F] {m : Model F D} {p : Profile F D}

/-- **C61** for FMI 3.0, all Reference FMUs but StateSpace: a call other than `fmi3DoStep` that returns, returns `fmi3OK` exactly if the
function is allowed in the current mode and its arguments agree with the model description. -/
theorem C61_partial (h : Describes m p) {fuel : Nat} {w w' : World F D} {op : Op F} {s o} (hn : p.needs w.inst.ctx) (hd : op.fn ≠ .doStep)
    (ho : op.fn = .updateDiscreteStates → ¬p.over w.inst.mv.data) (e : step m fuel w op = .ret (w', s, o)) :
    s = .OK ↔ w.inst.ctx.state ∈ Spec.allowedIn op.fn ∧ Args m p w op :=
  step_okIff h.lawful h.ref.eff.okOrError hn hd ho _ e

/-- **C61** for `fmi3DoStep`, all Reference FMUs but StateSpace: after any history that does not restore an FMU state or continue after the
FMU asked to end the simulation, a communication step that starts at the expected communication point, has a positive size and ends at or
before the stop time returns `fmi3OK`. -/
theorem C61_doStep_partial {D : Type} {m : Model XRat D} {p : Profile XRat D} (hm : Describes m p) {t : IType} {c : Comp XRat D} {w₀}
    (hn : New m t c) (h₀ : w₀.Initial c) {fuel fuel' : Nat} {ops : List (Op XRat)} {w w' outs}
    (hrun : run m fuel w₀ ops = .ret (w, outs)) (hops : ∀ op ∈ ops, ∀ i, op ≠ .setFMUState i) (hterm : ∀ o ∈ outs, ¬ o.2.terminates)
    (hw : ReachableProper m t w) (hs : w.inst.ctx.state ∈ Spec.allowedIn .doStep) (ho : ¬p.over w.inst.mv.data)
    {ccp h : XRat} {out : StepOut XRat} (ha : (Clock.new.run3 ops outs).Accepts ccp h) {s o}
    (e : step m fuel' w (.doStep ccp h out) = .ret (w', s, o)) : s = .OK := by
  have hok := hm.ref.eff.okOrError
  have h1 := run_clock hok ops hops _ hrun hterm
  have h2 : c.clock = .new := by
    obtain ⟨_, _, _, _, _, _, _, c₀, _, _, _, _, _, _, e, rfl⟩ := hn.created
    have := createModelInstance_clock e
    exact this
  simp only [h₀.inst, h2] at h1
  rw [← h1] at ha
  obtain ⟨k1, k2, k3⟩ := ha.checks
  simp only [step, World.run, doStep, begin, beginFunction] at e
  obtain ⟨⟨c', s', u⟩, e1, e⟩ := Outcome.bind_eq_ret.1 e
  cases e
  rw [if_pos (show allowed w.inst.ctx MASK_DoStep = true from (allowed_fn _ .doStep).2 hs), if_neg (by simpa [Comp.clock] using k1), if_neg (by simpa using k2),
    if_neg (by simpa [Comp.clock] using k3)] at e1
  split at e1
  · cases e1
  · obtain ⟨n, c1, s1, ehn, r, -, hl, hf⟩ := Loop.of_eq hok e1
    obtain ⟨od, hon⟩ := hm.ongoing
    obtain ⟨hlen, hinv⟩ := hw.ready od hm.ref
    have hst : w.inst.ctx.state = .stepMode := by simpa [Spec.allowedIn] using hs
    have hconf : od.Configured w.inst := hinv.resolve_left (by rw [hst]; simp [Mode.early])
    have := hl.accepted hm.lawful hon hok (hconf.ready hlen) fun _ => ⟨rfl, ho⟩
    subst this
    unfold finish doStepEnd at hf
    rw [if_pos rfl] at hf
    split at hf
    · cases hf
    · cases hf; rfl

/-- Non-vacuity: Clocks in Clock Activation Mode. The two periodic clocks and the countdown clock start model partitions, the clock
1003 has a varying interval, and 2001 cannot be set. -/
example : ∃ w outs, Ex.runSE3 (Clocks.model : Model XRat _) Ex.init3 = .ret (w, outs) ∧ Ex.allOK outs = true ∧
    w.inst.ctx.state ∈ Spec.allowedIn .activateModelPartition ∧
    Args Clocks.model .clocksFMU w (.activateModelPartition 1001 (.fin 0)) ∧
    Args Clocks.model .clocksFMU w (.getIntervalDecimal (some [1003]) 1 (some [.nan]) (some [0])) ∧
    Args Clocks.model .clocksFMU w (.set .int32 (some [2006]) 1 (some [(5 : Int)]) 1) ∧
    ¬Args Clocks.model .clocksFMU w (.set .int32 (some [2001]) 1 (some [(5 : Int)]) 1) := by
  obtain ⟨⟨w, outs⟩, e, h⟩ := Outcome.exists_of_is (r := Ex.runSE3 (Clocks.model : Model XRat _) Ex.init3)
    (p := fun x => Ex.allOK x.2 && decide (x.1.inst.ctx.state = .clockActivationMode)) (by decide +kernel)
  simp only [Bool.and_eq_true, decide_eq_true_eq] at h
  obtain ⟨h1, h2⟩ := h
  refine ⟨w, outs, e, h1, by rw [h2]; decide, by simp [Args, Profile.clocksFMU], ?_, .inr ⟨?_, rfl⟩, ?_⟩
  · intro i hi
    match i, hi with
    | 0, _ => exact ⟨1003, by simp [Profile.clocksFMU], _, rfl, rfl⟩
  · intro i hi
    match i, hi with
    | 0, _ => exact ⟨2006, _, ⟨_, rfl, rfl⟩, ⟨_, rfl, rfl⟩, .always, by simp [Profile.clocksFMU], trivial, trivial⟩
  · rintro (h | ⟨h, -⟩)
    · cases h
    · obtain ⟨r, x, ⟨l, hl, hr⟩, -, a, ha, ha', -⟩ := h 0 (by decide)
      cases hl; cases hr
      simp [Profile.clocksFMU] at ha
      subst ha
      exact ha'

/-- Non-vacuity of `C61_doStep_partial`: with event mode and early return the first step of Stair from 0 to 2 ends at 1; after the event a
step from 1 is accepted. -/
example : ∃ w outs, Ex.runCS3 (Stair.model : Model XRat _) true true (Ex.init3 ++ [.enterStepMode, .doStep (.fin 0) (.fin 2) Ex.stepOut,
      .enterEventMode, .updateDiscreteStates ⟨some true, some true, some true, some true, some true, some .nan⟩, .enterStepMode]) = .ret (w, outs) ∧
    w.inst.ctx.state ∈ Spec.allowedIn .doStep ∧ ¬(.stair : Profile XRat Stair.Data).over w.inst.mv.data ∧
    (Clock.new.run3 (Ex.init3 ++ [.enterStepMode, .doStep (.fin 0) (.fin 2) Ex.stepOut,
      .enterEventMode, .updateDiscreteStates ⟨some true, some true, some true, some true, some true, some .nan⟩, .enterStepMode]) outs).Accepts (.fin 1) (.fin 3) := by
  obtain ⟨⟨w, outs⟩, e, h⟩ := Outcome.exists_of_is (r := Ex.runCS3 (Stair.model : Model XRat _) true true (Ex.init3 ++ [.enterStepMode,
      .doStep (.fin 0) (.fin 2) Ex.stepOut, .enterEventMode, .updateDiscreteStates ⟨some true, some true, some true, some true, some true, some .nan⟩, .enterStepMode]))
    (p := fun x => decide (x.1.inst.ctx.state = .stepMode) && decide (x.1.inst.mv.data.counter < 10) &&
      decide ((Clock.new.run3 (Ex.init3 ++ [.enterStepMode, .doStep (.fin 0) (.fin 2) Ex.stepOut,
        .enterEventMode, .updateDiscreteStates ⟨some true, some true, some true, some true, some true, some .nan⟩, .enterStepMode]) x.2).expected = .fin 1) &&
      decide ((Clock.new.run3 (Ex.init3 ++ [.enterStepMode, .doStep (.fin 0) (.fin 2) Ex.stepOut,
        .enterEventMode, .updateDiscreteStates ⟨some true, some true, some true, some true, some true, some .nan⟩, .enterStepMode]) x.2).stop = .pinf)) (by decide +kernel)
  simp only [Bool.and_eq_true, decide_eq_true_eq] at h
  obtain ⟨⟨⟨h1, h2⟩, h3⟩, h4⟩ := h
  refine ⟨w, outs, e, by rw [h1]; decide, ?_, .mk h3 (.refl _) (by decide +kernel) (.inl h4)⟩
  show ¬ 10 ≤ w.inst.mv.data.counter
  omega

end FMI3
end Verif
