import Verif.Lemmas.Success

/-!
# C64: every legal call returns, with OK

C61 says which status a call returns if it returns. The theorems below add that it does return: it neither runs forever
nor executes undefined behaviour. The modes are in Verif/Spec/Modes2.lean and Verif/Spec/Modes3.lean, the arguments an importer may
pass in Verif/Spec/Legal.lean (`Args`, from the model descriptions) and Verif/Spec/WellFormed.lean (`WellFormed`: the arrays are as
long as announced).
-/

set_option linter.unusedSectionVars false

namespace Verif

namespace FMI2
section
variable {F D : Type} [Arith F] [HasInf F] {m : Model F D} {p : Profile F D}

/-- **C64** for FMI 2.0: after any history, a call other than `fmi2DoStep` that is allowed in the current mode and whose arguments are
as the model description requires returns `fmi2OK`. Resource needs its resource file, and Stair must not be asked for another event when
its counter has reached 10. -/
theorem C64 (h : Describes m p) {t : IType} {w : World F D} (hw : Reachable m t w) (hn : p.needs w.inst.ctx) {op : Op F}
    (hd : op.fn ≠ .doStep) (ho : op.fn = .newDiscreteStates → ¬p.over w.inst.mv.data)
    (hs : w.inst.ctx.state ∈ Spec.allowedIn op.fn) (ha : Args m p w op) (wf : WellFormed w op) (fuel : Nat) :
    ∃ w' o, step m fuel w op = .ret (w', .OK, o) := by
  obtain ⟨⟨w', s, o⟩, e⟩ := legal_ret h hw hd wf fuel
  obtain rfl := (C61 h hn hd ho e).2 ⟨hs, ha⟩
  exact ⟨w', o, e⟩

end

/-- **C64** for `fmi2DoStep`: in a Co-Simulation session that was set up with the start time `start`, after any calls, a
communication step that starts at the expected communication point, has a positive size and ends at or before the stop time returns. It
returns `fmi2OK`, or `fmi2Discard` if the FMU asks to end the simulation. `K` bounds the number of solver steps of the step, which must
fit the step counter (64 bits) together with those made before. -/
theorem C64_doStep {D : Type} {m : Model XRat D} {p : Profile XRat D} (hm : Describes m p) {h start : Rat} (hh : m.h = .fin h)
    {w w₀ w₁ : World XRat D} (hr : Reachable m .coSimulation w) {f₀ o₀ sd stop}
    (e₀ : step m f₀ w (.setupExperiment (.fin start) sd stop) = .ret (w₀, .OK, o₀))
    {f₁ : Nat} {ops : List (Op XRat)} {outs} (hops : ∀ op ∈ ops, ¬ EndsSession op)
    (e₁ : run m f₁ w₀ ops = .ret (w₁, outs)) (hs : w₁.inst.ctx.state ∈ Spec.allowedIn .doStep) (ho : ¬p.over w₁.inst.mv.data)
    {a d : Rat} (ha : (Clock.run2 ⟨.fin start, if sd then stop else .pinf⟩ ops outs).Accepts (.fin a) (.fin d)) {K : Nat}
    (hK : 2 * |a + d| + 1 ≤ start + K * h) (hb : f₁ * ops.length + K < 2 ^ 64) {fuel : Nat} (hf : K < fuel) :
    ∃ w' s o, step m fuel w₁ (.doStep (.fin a) (.fin d)) = .ret (w', s, o) ∧ (s = .OK ∨ s = .Discard) := by
  have hok := hm.ref.eff.okOrError
  have h0 : 0 ≤ h := by cases hm <;> cases hh <;> decide +kernel
  obtain ⟨hw, hn0, ht0, hs0, hc0⟩ := setup_start hok hr e₀
  obtain ⟨-, n, hn, hadv⟩ := Outcome.all_ret.1 (e₁ ▸ run_advanced hok (fuel := f₁) ops hw hops)
  rw [hh] at hadv
  obtain ⟨hT, hN⟩ := Ticks.of_advanced hadv hn0 hs0 ht0 (by omega)
  have hn' : (0 : Rat) ≤ n * h := mul_nonneg (by exact_mod_cast Nat.zero_le n) h0
  have hcl := run_clock hok ops (fun op hop i e => hops op hop (by subst e; exact .inr (.inr rfl))) _ e₁
  simp only [hc0] at hcl
  have hr₀ := Reachable.call hok hr e₀
  have hr₁ : Reachable m .coSimulation w₁ := hr₀.run hok e₁
  exact doStep_legal hm hr₁ (by simpa [Spec.allowedIn] using hs) ho (hcl ▸ ha) hh hT (by linarith) (by rw [hN]; omega) hf

/-- Non-vacuity of `C64`: BouncingBall in Step Mode, reading height and velocity and setting the restitution coefficient. -/
example : ∃ w outs, Ex.run2 (BouncingBall.model : Model XRat _) .coSimulation (Ex.init2 ++ [.doStep (.fin 0) (.fin (1/10))]) = .ret (w, outs) ∧
    Reachable BouncingBall.model .coSimulation w ∧
    ∀ op ∈ [(.getReal (some [1, 3]) 2 (some [.nan, .nan]) : Op XRat), .setReal (some [6]) 1 (some [.fin (1/2)])],
      op.fn ≠ .doStep ∧ op.fn ≠ .newDiscreteStates ∧ w.inst.ctx.state ∈ Spec.allowedIn op.fn ∧ Args BouncingBall.model .bouncingBall w op ∧
      WellFormed w op := by
  obtain ⟨⟨w, outs⟩, e, h⟩ := Outcome.exists_of_is (r := Ex.run2 (BouncingBall.model : Model XRat _) .coSimulation
    (Ex.init2 ++ [.doStep (.fin 0) (.fin (1/10))])) (p := fun x => decide (x.1.inst.ctx.state = .stepComplete) &&
      decide (x.1.inst.ctx.typ = .coSimulation)) (by decide +kernel)
  simp only [Bool.and_eq_true, decide_eq_true_eq] at h
  obtain ⟨h2, h3⟩ := h
  refine ⟨w, outs, e, Ex.reach_run2 e, fun op hop => ?_⟩
  simp only [List.mem_cons, List.not_mem_nil, or_false] at hop
  rcases hop with rfl | rfl
  · refine ⟨by simp [Op.fn], by simp [Op.fn], by rw [h2]; simp [Op.fn, Spec.allowedIn], ⟨fun i hi => ?_, by simp⟩, .inr ⟨_, rfl, by simp⟩, .inr ⟨_, rfl, by simp⟩⟩
    match i, hi with
    | 0, _ => exact ⟨1, ⟨_, rfl, rfl⟩, .state, by simp [Profile.bouncingBall]⟩
    | 1, _ => exact ⟨3, ⟨_, rfl, rfl⟩, .state, by simp [Profile.bouncingBall]⟩
  · refine ⟨by simp [Op.fn], by simp [Op.fn], by rw [h2]; simp [Op.fn, Spec.allowedIn], fun i hi => ?_, .inr ⟨_, rfl, by simp⟩, .inr ⟨_, rfl, by simp⟩⟩
    match i, hi with
    | 0, _ => exact ⟨6, _, ⟨_, rfl, rfl⟩, ⟨_, rfl, rfl⟩, .discrete, by simp [Profile.bouncingBall], fun h => by simp [h3] at h, trivial⟩

/-- Non-vacuity of `C64_doStep`: Stair with the stop time 10, after a step from 0 to 3. The step from 3 to 8 needs 25 solver steps. -/
example {c : Comp XRat Stair.Data} (hc : Ex.new2 Stair.model .coSimulation = some c) : ∃ w₀ w₁ o₀ outs,
    step Stair.model 1 (.fresh c) (.setupExperiment (.fin 0) true (.fin 10)) = .ret (w₀, .OK, o₀) ∧
    run Stair.model 20 w₀ [.enterInitializationMode, .exitInitializationMode, .doStep (.fin 0) (.fin 3)] = .ret (w₁, outs) ∧
    ∃ w' s o, step Stair.model 100 w₁ (.doStep (.fin 3) (.fin 5)) = .ret (w', s, o) ∧ (s = .OK ∨ s = .Discard) := by
  obtain ⟨c', hc', h⟩ := exists_of_any (o := Ex.new2 (Stair.model : Model XRat _) .coSimulation) (p := fun c =>
    (step Stair.model 1 (.fresh c) (.setupExperiment (.fin 0) true (.fin 10))).is fun x => x.2.1 == .OK &&
      (run Stair.model 20 x.1 [.enterInitializationMode, .exitInitializationMode, .doStep (.fin 0) (.fin 3)]).is fun y =>
        decide (y.2 = [(.OK, .unit), (.OK, .unit), (.OK, .unit)]) && decide (y.1.inst.ctx.state = .stepComplete) &&
        decide (y.1.inst.mv.data.counter < 10)) (by decide +kernel)
  cases hc.symm.trans hc'
  obtain ⟨⟨w₀, s₀, o₀⟩, e₀, h⟩ := Outcome.exists_of_is h
  simp only [Bool.and_eq_true, beq_iff_eq] at h
  obtain ⟨rfl, h⟩ := h
  obtain ⟨⟨w₁, outs⟩, e₁, h⟩ := Outcome.exists_of_is h
  simp only [Bool.and_eq_true, decide_eq_true_eq] at h
  obtain ⟨⟨rfl, h2⟩, h3⟩ := h
  refine ⟨w₀, w₁, o₀, _, e₀, e₁, C64_doStep (h := 1/5) .stair (by decide +kernel) (Ex.reachable2 hc) e₀ (by simp [EndsSession, Op.fn]) e₁
    (by rw [h2]; decide) (fun h => by have h : 10 ≤ w₁.inst.mv.data.counter := h; omega)
    (.mk (e := 3) (by decide +kernel) (.refl _) (by decide +kernel) (.inr ⟨10, rfl, .inl (by decide +kernel)⟩)) (K := 85) (by decide +kernel) (by decide) (by decide)⟩

end FMI2

namespace FMI3
section
variable {F D : Type} [Arith F] [HasInf F] {m : Model F D} {p : Profile F D}

/-- **C64** for FMI 3.0, all Reference FMUs but StateSpace: after any history, a call other than `fmi3DoStep` and
`fmi3ActivateModelPartition` that is allowed in the current mode and whose arguments are as the model description requires returns
`fmi3OK`. -/
theorem C64_partial (h : Describes m p) {t : IType} {w : World F D} (hw : Reachable m t w) (hn : p.needs w.inst.ctx) {op : Op F}
    (hd : op.fn ≠ .doStep) (hp : op.fn ≠ .activateModelPartition) (ho : op.fn = .updateDiscreteStates → ¬p.over w.inst.mv.data)
    (hs : w.inst.ctx.state ∈ Spec.allowedIn op.fn) (ha : Args m p w op) (wf : WellFormed w op) (fuel : Nat) :
    ∃ w' o, step m fuel w op = .ret (w', .OK, o) := by
  obtain ⟨⟨w', s, o⟩, e⟩ := legal_ret h hw hn hd wf ha.enough hp ho fuel
  obtain rfl := (C61_partial h hn hd ho e).2 ⟨hs, ha⟩
  exact ⟨w', o, e⟩

/-- **C64** for `fmi3ActivateModelPartition`: in Clock Activation Mode a clock of Clocks that triggers a model partition can be activated
if the importer has provided the callback `clockUpdate` and the counters fit 32 bits (`C45.CanActivate`). -/
theorem C64_activate_partial {t : IType} {w : World F (Clocks.Data F)} (hw : Reachable Clocks.model t w) {clock : Nat} {time : F}
    (hs : w.inst.ctx.state ∈ Spec.allowedIn .activateModelPartition) (hc : clock ∈ [1001, 1002, 1003])
    (hcan : C45.CanActivate w (.activateModelPartition clock time)) (fuel : Nat) :
    ∃ w' o, step Clocks.model fuel w (.activateModelPartition clock time) = .ret (w', .OK, o) := by
  have h : Describes (Clocks.model : Model F _) .clocksFMU := .clocks
  obtain ⟨⟨w', s, o⟩, e⟩ := Outcome.exists_ret (step_ends h.ref.endsAll (op := .activateModelPartition clock time) (by simp [Op.fn]) fuel w)
    fun e => C45_clocks_partial hw (op := .activateModelPartition clock time) trivial hcan ⟨fuel, e⟩
  obtain rfl := (C61_partial h trivial (by simp [Op.fn]) (fun h => by cases h) e).2 ⟨hs, hc⟩
  exact ⟨w', o, e⟩

end

/-- **C64** for `fmi3DoStep`, all Reference FMUs but StateSpace: in a Co-Simulation session that was initialized with the start time
`start`, after any calls (none of which restored an FMU state, set the time, or continued after the FMU asked to end the simulation), a
communication step that starts at the expected communication point, has a positive size and ends at or before the stop time returns
`fmi3OK`. -/
theorem C64_doStep_partial {D : Type} {m : Model XRat D} {p : Profile XRat D} (hm : Describes m p) {h start : Rat} (hh : m.h = .fin h)
    {w w₀ w₁ : World XRat D} (hr : Reachable m .coSimulation w) {f₀ o₀ sd stop}
    (e₀ : step m f₀ w (.enterInitializationMode (.fin start) sd stop) = .ret (w₀, .OK, o₀))
    {f₁ : Nat} {ops : List (Op XRat)} {outs} (hops : ∀ op ∈ ops, ¬ EndsSession op ∧ op.fn ≠ .setTime)
    (e₁ : run m f₁ w₀ ops = .ret (w₁, outs)) (hterm : ∀ o ∈ outs, ¬ o.2.terminates) (hw : ReachableProper m .coSimulation w₁)
    (hn : p.needs w₁.inst.ctx) (hs : w₁.inst.ctx.state ∈ Spec.allowedIn .doStep) (ho : ¬p.over w₁.inst.mv.data)
    {a d : Rat} {out : StepOut XRat} (wf : WellFormed w₁ (.doStep (.fin a) (.fin d) out))
    (ha : (Clock.run3 ⟨.fin start, if sd then stop else .pinf⟩ ops outs).Accepts (.fin a) (.fin d)) {K : Nat}
    (hK : 2 * |a + d| + 1 ≤ start + K * h) (hb : f₁ * ops.length + K < 2 ^ 64) {fuel : Nat} (hf : K < fuel) :
    ∃ w' o, step m fuel w₁ (.doStep (.fin a) (.fin d) out) = .ret (w', .OK, o) := by
  have hok := hm.ref.eff.okOrError
  have h0 : 0 ≤ h := by cases hm <;> cases hh <;> decide +kernel
  obtain ⟨hn0, ht0, hs0, hc0⟩ := init_start hok hr e₀
  obtain ⟨n, hn', hadv⟩ := Outcome.all_ret.1 (e₁ ▸ run_advanced hok (fuel := f₁) (w := w₀) ops hops)
  rw [hh] at hadv
  obtain ⟨hT, hN⟩ := Ticks.of_advanced hadv hn0 hs0 ht0 (by omega)
  have hn'' : (0 : Rat) ≤ n * h := mul_nonneg (by exact_mod_cast Nat.zero_le n) h0
  have hcl := run_clock hok ops (fun op hop i e => (hops op hop).1 (by subst e; exact .inr (.inr rfl))) _ e₁ hterm
  simp only [hc0] at hcl
  exact doStep_legal hm hw hn (by simpa [Spec.allowedIn] using hs) ho wf (hcl ▸ ha) hh hT (by linarith) (by rw [hN]; omega) hf

/-- Non-vacuity of `C64_partial`: Feedthrough in Step Mode, setting an enumeration and reading a string. -/
example : ∃ w outs, Ex.runCS3 (Feedthrough.model true : Model XRat _) false false Ex.init3 = .ret (w, outs) ∧
    Reachable (Feedthrough.model true) .coSimulation w ∧
    ∀ op ∈ [(.set .int64 (some [33]) 1 (some [(2 : Int)]) 1 : Op XRat), .get .string (some [29, 30]) 2 (some [none, none]) 2],
      op.fn ≠ .doStep ∧ op.fn ≠ .activateModelPartition ∧ op.fn ≠ .updateDiscreteStates ∧ w.inst.ctx.state ∈ Spec.allowedIn op.fn ∧
      Args (Feedthrough.model true) (.feedthrough true) w op ∧ WellFormed w op := by
  obtain ⟨⟨w, outs⟩, e, h⟩ := Outcome.exists_of_is (r := Ex.runCS3 (Feedthrough.model true : Model XRat _) false false Ex.init3)
    (p := fun x => decide (x.1.inst.ctx.state = .stepMode)) (by decide +kernel)
  simp only [decide_eq_true_eq] at h
  refine ⟨w, outs, e, Ex.reach_runCS3 e, fun op hop => ?_⟩
  simp only [List.mem_cons, List.not_mem_nil, or_false] at hop
  rcases hop with rfl | rfl
  · refine ⟨by simp [Op.fn], by simp [Op.fn], by simp [Op.fn], by rw [h]; simp [Op.fn, Spec.allowedIn], .inr ⟨fun i hi => ?_, rfl⟩,
      .inr ⟨_, rfl, by simp⟩, .inr ⟨_, rfl, by simp⟩, fun _ _ _ _ => trivial⟩
    match i, hi with
    | 0, _ => exact ⟨33, _, ⟨_, rfl, rfl⟩, ⟨_, rfl, rfl⟩, .always, by simp [Profile.feedthrough, Profile.feedthroughVars], trivial, fun _ => .inr rfl⟩
  · refine ⟨by simp [Op.fn], by simp [Op.fn], by simp [Op.fn], by rw [h]; simp [Op.fn, Spec.allowedIn], .inr ⟨fun i hi => ?_, by simp, by simp⟩,
      .inr ⟨_, rfl, by simp⟩, .inr ⟨_, rfl, by simp⟩⟩
    match i, hi with
    | 0, _ => exact ⟨29, ⟨_, rfl, rfl⟩, .always, by simp [Profile.feedthrough, Profile.feedthroughVars]⟩
    | 1, _ => exact ⟨30, ⟨_, rfl, rfl⟩, .never, by simp [Profile.feedthrough, Profile.feedthroughVars]⟩

/-- Non-vacuity of `C64_activate_partial`: the second clock of Clocks, after an activation of the first. -/
example : ∃ w outs, Ex.runSE3 (Clocks.model : Model XRat _) (Ex.init3 ++ [.activateModelPartition 1001 (.fin 0)]) = .ret (w, outs) ∧
    Reachable Clocks.model .scheduledExecution w ∧ w.inst.ctx.state ∈ Spec.allowedIn .activateModelPartition ∧
    C45.CanActivate w (.activateModelPartition 1002 (.fin 1)) := by
  obtain ⟨⟨w, outs⟩, e, h⟩ := Outcome.exists_of_is (r := Ex.runSE3 (Clocks.model : Model XRat _)
    (Ex.init3 ++ [.activateModelPartition 1001 (.fin 0)])) (p := fun x => decide (x.1.inst.ctx.state = .clockActivationMode) &&
      decide (x.1.inst.ctx.clockUpdate = true) &&
      decide (x.1.inst.mv.data.totalInClockTicks = 1) && decide (x.1.inst.mv.data.result2 = 0) && decide (x.1.inst.mv.data.input2 = 0))
    (by decide +kernel)
  simp only [Bool.and_eq_true, decide_eq_true_eq] at h
  obtain ⟨⟨⟨⟨h1, h2⟩, h3⟩, h4⟩, h5⟩ := h
  refine ⟨w, outs, e, Ex.reach_runSE3 e, by rw [h1]; decide, h2, ?_, nofun, ?_⟩
  · intro n hn
    simp only [Clocks.intVar, Option.some.injEq] at hn
    omega
  · intro _ a b ha hb
    simp only [Clocks.intVar, Option.some.injEq] at ha hb
    omega

/-- Non-vacuity of `C64_doStep_partial`: BouncingBall without stop time, after a step from 0 to 1/50; the next step has 20 solver steps. -/
example {c : Comp XRat (BouncingBall.Data XRat)} (hc : Ex.newCS3 BouncingBall.model false false = some c) : ∃ w₀ w₁ o₀ outs,
    step BouncingBall.model 1 (.fresh c) (.enterInitializationMode (.fin 0) false (.fin 0)) = .ret (w₀, .OK, o₀) ∧
    run BouncingBall.model 25 w₀ [.exitInitializationMode, .doStep (.fin 0) (.fin (1/50)) Ex.stepOut] = .ret (w₁, outs) ∧
    ∃ w' o, step BouncingBall.model 2000 w₁ (.doStep (.fin (1/50)) (.fin (1/50)) Ex.stepOut) = .ret (w', .OK, o) := by
  obtain ⟨c', hc', h⟩ := exists_of_any (o := Ex.newCS3 (BouncingBall.model : Model XRat _) false false) (p := fun c =>
    (step BouncingBall.model 1 (.fresh c) (.enterInitializationMode (.fin 0) false (.fin 0))).is fun x => x.2.1 == .OK &&
      (run BouncingBall.model 25 x.1 [.exitInitializationMode, .doStep (.fin 0) (.fin (1/50)) Ex.stepOut]).is fun y =>
        decide (y.2 = [(.OK, .unit), (.OK, .step ⟨some false, some false, some false, some (.fin (1/50))⟩)]) &&
        decide (y.1.inst.ctx.state = .stepMode)) (by decide +kernel)
  cases hc.symm.trans hc'
  obtain ⟨⟨w₀, s₀, o₀⟩, e₀, h⟩ := Outcome.exists_of_is h
  simp only [Bool.and_eq_true, beq_iff_eq] at h
  obtain ⟨rfl, h⟩ := h
  obtain ⟨⟨w₁, outs⟩, e₁, h⟩ := Outcome.exists_of_is h
  simp only [Bool.and_eq_true, decide_eq_true_eq] at h
  obtain ⟨rfl, h2⟩ := h
  have hp : ReachableProper BouncingBall.model .coSimulation w₁ := by
    have h1 : ReachableProper BouncingBall.model .coSimulation (.fresh c) := .new (.cs (Prod.ext hc rfl)) ⟨rfl, fun _ => rfl, fun _ _ e => by cases e⟩
    have h2 := ReachableProper.call h1 e₀ (by intro h; cases h)
    simp only [run] at e₁
    obtain ⟨⟨v, s, o⟩, e2, e3⟩ := Outcome.bind_eq_ret.1 e₁
    obtain ⟨⟨v1, outs⟩, e3, e4⟩ := Outcome.bind_eq_ret.1 e3
    obtain ⟨⟨v', s', o'⟩, e5, e6⟩ := Outcome.bind_eq_ret.1 e3
    have h3 := ReachableProper.call h2 e2 (by intro h; cases h)
    cases e6
    cases e4
    exact ReachableProper.call h3 e5 (by intro h; cases h)
  refine ⟨w₀, w₁, o₀, _, e₀, e₁, C64_doStep_partial (h := 1/1000) .bouncingBall (by decide +kernel) (Ex.reachableCS3 hc) e₀ (by simp [EndsSession, Op.fn]) e₁
    (by simp [Out.terminates]) hp trivial (by rw [h2]; decide) (fun h => h) ⟨by simp [Ex.stepOut], by simp [Ex.stepOut], by simp [Ex.stepOut], by simp [Ex.stepOut]⟩
    (.mk (e := 1/50) (by decide +kernel) (.refl _) (by decide +kernel) (.inl rfl)) (K := 1080) (by decide +kernel) (by decide) (by decide)⟩

end FMI3
end Verif
