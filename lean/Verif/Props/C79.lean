import Verif.Spec.Capabilities
import Verif.Props.C10
import Verif.Props.C19
import Verif.Props.C25
import Verif.Props.C64StateSpace
import Verif.Lemmas.EventInfo
import Verif.Lemmas.ExReach

/-!
# C79: the capabilities that the model descriptions declare are delivered

`Promises m d` (Verif/Spec/Capabilities.lean) transcribes the attributes of the model descriptions. Getting, setting and serializing FMU
states is the subject of C07 and C08, the numbers of continuous states and event indicators that of C48, and the calls of the intermediate
update callback that of C80.
-/

set_option linter.unusedSectionVars false

namespace Verif

namespace FMI2
variable {F D : Type} [Arith F] [HasInf F] {m : Model F D} {d : Description2}

theorem Promises.ref (h : Promises m d) : RefFMU2 m := by cases h <;> constructor
theorem Promises.token (h : Promises m d) : m.token = d.guid := by cases h <;> rfl

/-- **C79** for FMI 2.0, instantiation: with a name and a logger, an FMU can be instantiated for both interface types with the GUID of its
model description and with no other. -/
theorem C79_instantiate (h : Promises m d) {name t guid resource loggingOn} (hn : Named name) :
    (instantiate m name t guid resource (some true) loggingOn true).1.isSome ↔ guid = some d.guid := by
  rw [C10_iff h.ref, h.token]
  simp [hn]

theorem Promises.profile (h : Promises m d) : ∃ p, Describes m p ∧ p.partialDerivatives = d.providesDirectionalDerivative := by
  cases h with
  | bouncingBall => exact ⟨_, .bouncingBall, rfl⟩
  | dahlquist => exact ⟨_, .dahlquist, rfl⟩
  | feedthrough => exact ⟨_, .feedthrough, rfl⟩
  | resource fs => exact ⟨_, .resource fs, rfl⟩
  | stair => exact ⟨_, .stair, rfl⟩
  | vanDerPol => exact ⟨_, .vanDerPol, rfl⟩

/-- **C79** for FMI 2.0, directional derivatives: a well-formed call for at least one unknown and one known succeeds in the modes in which
the function is allowed exactly if the model description declares that the FMU provides directional derivatives. -/
theorem C79_directional (h : Promises m d) {t : IType} {w : World F D} (hw : Reachable m t w)
    (hn : ∀ p, Describes m p → p.needs w.inst.ctx) {u k : Ptr Nat} {nu nk : Nat} {dk du : Ptr F} (hu : nu ≠ 0) (hk : nk ≠ 0)
    (hs : w.inst.ctx.state ∈ Spec.allowedIn .getDirectionalDerivative) (wf : WellFormed w (.getDirectionalDerivative u nu k nk dk du))
    (fuel : Nat) : ∃ w' s o, step m fuel w (.getDirectionalDerivative u nu k nk dk du) = .ret (w', s, o) ∧
      (s = .OK ↔ d.providesDirectionalDerivative = true) := by
  obtain ⟨p, hp, hd⟩ := h.profile
  obtain ⟨⟨w', s, o⟩, e⟩ := legal_ret hp hw (op := .getDirectionalDerivative u nu k nk dk du) (by simp [Op.fn]) wf fuel
  refine ⟨w', s, o, e, ?_⟩
  rw [C61 hp (hn p hp) (by simp [Op.fn]) (fun h => by cases h) e, ← hd]
  simp only [Args, hu, hk, false_or]
  exact ⟨fun h => h.2, fun h => ⟨hs, h⟩⟩

/-- Non-vacuity: VanDerPol gives the derivative of `der(x1)` by `x0`, Dahlquist refuses. -/
example : (Ex.run2 (VanDerPol.model : Model XRat _) .modelExchange (Ex.init2 ++ [.getDirectionalDerivative (some [4]) 1 (some [1]) 1
      (some [.fin 1]) (some [.fin 0])])).is (fun x => Ex.allOK x.2) = true ∧
    (Ex.run2 (Dahlquist.model : Model XRat _) .modelExchange (Ex.init2 ++ [.getDirectionalDerivative (some [2]) 1 (some [1]) 1
      (some [.fin 1]) (some [.fin 0])])).is (fun x => decide ((x.2.map (·.1)).getLast? = some .Error)) = true := by decide +kernel

end FMI2

namespace FMI3
section
variable {F D : Type} [Arith F] [HasInf F] {m : Model F D} {d : Description3}

theorem Promises.ref (h : Promises m d) : RefFMU3 m := by cases h <;> constructor
theorem Promises.token (h : Promises m d) : m.token = d.token := by cases h <;> rfl

/-- **C79** for FMI 3.0, instantiation for Model Exchange: with the token of the model description exactly the FMUs succeed that declare
the interface type, and with another token none. -/
theorem C79_modelExchange (h : Promises m d) {name token resource loggingOn logger} (hn : Named name) :
    (instantiateModelExchange m name token resource loggingOn logger true).1.isSome ↔ token = some d.token ∧ d.modelExchange.isSome := by
  rw [C10_me_iff h.ref, h.token]
  have : m.modelExchange = true ↔ d.modelExchange.isSome = true := by cases h <;> exact ⟨fun _ => by first | rfl | contradiction, fun _ => by first | rfl | contradiction⟩
  simp [hn, this]

/-- The same for Scheduled Execution. -/
theorem C79_scheduledExecution (h : Promises m d) {name token resource loggingOn logger cu lo un} (hn : Named name) :
    (instantiateScheduledExecution m name token resource loggingOn logger cu lo un true).1.isSome ↔
      token = some d.token ∧ d.scheduledExecution = true := by
  rw [C10_se_iff h.ref, h.token]
  have : m.scheduledExecution = d.scheduledExecution := by cases h <;> rfl
  simp [hn, this]

/-- **C79**, instantiation for Co-Simulation: with the token of the model description an FMU that declares the interface type succeeds
without Event Mode, and with Event Mode exactly if it declares that it has an Event Mode. What is missing: this is false for Roberts
(`C79_violated_eventMode`), and Clocks, which does not declare Co-Simulation, can be instantiated too (`C10_violated`). -/
theorem C79_coSimulation_partial (h : Promises m d) {a : CoSimulationAttributes} (ha : d.coSimulation = some a) (hr : d ≠ .roberts)
    {name token resource loggingOn em er logger iu} (hn : Named name) :
    (instantiateCoSimulation m name token resource loggingOn em er logger iu true).1.isSome ↔
      token = some d.token ∧ (em = true → a.hasEventMode = true) := by
  rw [C10_cs_iff_partial h.ref, h.token]
  have : m.eventUpdate.isSome = a.hasEventMode := by
    cases h <;> first | exact absurd rfl hr | (cases ha; done) | (cases ha; rfl)
  simp [hn, this]

/-- Roberts declares that it has an Event Mode, but it cannot be instantiated with Event Mode. -/
theorem C79_violated_eventMode : Promises (Roberts.model : Model F _) .roberts ∧
    (∃ a, Description3.roberts.coSimulation = some a ∧ a.hasEventMode = true) ∧
    ∀ name token resource loggingOn er logger iu,
      (instantiateCoSimulation (Roberts.model : Model F _) name token resource loggingOn true er logger iu true).1 = none := by
  refine ⟨.roberts, ⟨_, rfl, rfl⟩, fun name token resource loggingOn er logger iu => ?_⟩
  rfl

/-- **C79**, the declared internal step size: in a session, the time that the FMU reports is on the grid of the declared step size. What is
missing: this is false for Roberts and StateSpace (`C79_violated_stepSize_roberts`, `C79_violated_stepSize_stateSpace`), and after
`fmi3SetTime` (`C19_fmi3_violated`). -/
theorem C79_stepSize_partial (h : Promises m d) {a : CoSimulationAttributes} (ha : d.coSimulation = some a) (hr : d ≠ .roberts)
    (hs : d ≠ .stateSpace) {start : F} {w w' : World F D} (h₀ : SessionStart m start w) {fuel : Nat} {ops : List (Op F)} {outs}
    (hops : ∀ op ∈ ops, ¬ EndsSession op ∧ op.fn ≠ .setTime) (e : run m fuel w ops = .ret (w', outs)) :
    ∃ t, ReadsTime m w' t ∧ OnGrid start (Arith.lit a.fixedInternalStepSize) t := by
  have : m.h = Arith.lit a.fixedInternalStepSize := by
    cases h <;> first | exact absurd rfl hr | exact absurd rfl hs | (cases ha; done) | (cases ha; rfl)
  rw [← this]
  exact C19_fmi3_partial h.ref h₀ hops e

theorem Promises.profile (h : Promises m d) (hs : d ≠ .stateSpace) : ∃ p, Describes m p ∧
    (∀ a, d.modelExchange = some a → a.providesDirectionalDerivatives = p.partialDerivatives ∧ a.providesAdjointDerivatives = p.partialDerivatives) ∧
    ∀ a, d.coSimulation = some a → (a.providesDirectionalDerivatives = true → p.partialDerivatives = true) ∧
      (a.providesAdjointDerivatives = true → p.partialDerivatives = true) := by
  cases h with
  | bouncingBall => exact ⟨_, .bouncingBall, fun a e => by cases e; exact ⟨rfl, rfl⟩, fun a e => by cases e; exact ⟨id, id⟩⟩
  | clocks => exact ⟨_, .clocks, (fun a e => by cases e), (fun a e => by cases e)⟩
  | dahlquist => exact ⟨_, .dahlquist, fun a e => by cases e; exact ⟨rfl, rfl⟩, fun a e => by cases e; exact ⟨id, id⟩⟩
  | feedthrough => exact ⟨_, .feedthrough, fun a e => by cases e; exact ⟨rfl, rfl⟩, fun a e => by cases e; exact ⟨id, id⟩⟩
  | resource fs => exact ⟨_, .resource fs, fun a e => by cases e; exact ⟨rfl, rfl⟩, fun a e => by cases e; exact ⟨id, id⟩⟩
  | roberts => exact ⟨_, .roberts, fun a e => by cases e; exact ⟨rfl, rfl⟩, fun a e => by cases e; exact ⟨fun _ => rfl, fun _ => rfl⟩⟩
  | stair => exact ⟨_, .stair, fun a e => by cases e; exact ⟨rfl, rfl⟩, fun a e => by cases e; exact ⟨id, id⟩⟩
  | stateSpace => exact absurd rfl hs
  | vanDerPol => exact ⟨_, .vanDerPol, fun a e => by cases e; exact ⟨rfl, rfl⟩, fun a e => by cases e; exact ⟨id, id⟩⟩

/-- **C79**, directional and adjoint derivatives, all FMUs but StateSpace: in a mode in which the functions are allowed, a well-formed call
for at least one unknown and one known returns; it succeeds exactly if the capability is declared for Model Exchange. In Co-Simulation too
it succeeds if it is declared for Co-Simulation. -/
theorem C79_derivatives_partial (h : Promises m d) (hS : d ≠ .stateSpace) {t : IType} {w : World F D} (hw : Reachable m t w)
    (hn : ∀ p, Describes m p → p.needs w.inst.ctx) {op : Op F} {u k : Ptr Nat} {nu nk : Nat} {seed sens : Ptr F} (hu : nu ≠ 0) (hk : nk ≠ 0)
    (hop : op = .getDirectionalDerivative u nu k nk seed sens ∨ op = .getAdjointDerivative u nu k nk seed sens)
    (hs : w.inst.ctx.state ∈ Spec.allowedIn op.fn) (wf : WellFormed w op) (fuel : Nat) :
    ∃ w' s o, step m fuel w op = .ret (w', s, o) ∧
      (∀ a, d.modelExchange = some a → (s = .OK ↔
        (if op.fn = .getDirectionalDerivative then a.providesDirectionalDerivatives else a.providesAdjointDerivatives) = true)) ∧
      (∀ a, d.coSimulation = some a →
        (if op.fn = .getDirectionalDerivative then a.providesDirectionalDerivatives else a.providesAdjointDerivatives) = true → s = .OK) := by
  obtain ⟨p, hp, h1, h2⟩ := h.profile hS
  have hd : op.fn ≠ .doStep := by rcases hop with rfl | rfl <;> simp [Op.fn]
  have hu' : op.fn ≠ .updateDiscreteStates := by rcases hop with rfl | rfl <;> simp [Op.fn]
  have ha : op.fn ≠ .activateModelPartition := by rcases hop with rfl | rfl <;> simp [Op.fn]
  obtain ⟨⟨w', s, o⟩, e⟩ := legal_ret hp hw (hn p hp) hd wf (by rcases hop with rfl | rfl <;> trivial) ha (fun h => absurd h hu') fuel
  have key : s = .OK ↔ p.partialDerivatives = true := by
    rw [C61_partial hp (hn p hp) hd (fun h => absurd h hu') e]
    rcases hop with rfl | rfl <;> simp only [Args, hu, hk, false_or] <;> exact ⟨fun h => h.2, fun h => ⟨hs, h⟩⟩
  refine ⟨w', s, o, e, ?_, ?_⟩
  · intro a ha
    rw [key, (h1 a ha).1, (h1 a ha).2, ite_self]
  · intro a ha h
    rw [key]
    split at h
    · exact (h2 a ha).1 h
    · exact (h2 a ha).2 h

/-- StateSpace declares neither, and both functions fail. -/
theorem C79_derivatives_stateSpace {t : IType} {w w' : World F (StateSpace.Data F)} (hw : Reachable StateSpace.model t w)
    (ht : w.inst.ctx.state ≠ .terminated) {op : Op F} {u k : Ptr Nat} {nu nk : Nat} {seed sens : Ptr F} (hu : nu ≠ 0) (hk : nk ≠ 0)
    (hop : op = .getDirectionalDerivative u nu k nk seed sens ∨ op = .getAdjointDerivative u nu k nk seed sens) {fuel s o}
    (e : step StateSpace.model fuel w op = .ret (w', s, o)) : s ≠ .OK := by
  have hd : op.fn ≠ .doStep := by rcases hop with rfl | rfl <;> simp [Op.fn]
  rw [Ne, C61_stateSpace_partial hw ht hd e]
  rintro ⟨-, h⟩
  rcases hop with rfl | rfl <;> simp [ArgsStateSpace, Args, hu, hk, StateSpace.profile] at h

/-- In an FMU without event update, or without event indicators and time events, an iteration of `fmi3DoStep` leaves neither because of an
event nor because of the end of the simulation. -/
theorem iter_eventless (hm : OkOrError m) (hi : MVInv m fun mv => mv.terminateSimulation = false ∧ mv.nextEventTimeDefined = false)
    (hq : m.eventUpdate = none ∨ m.maxNZ = 0) {c c' : Comp F D} (hc : c.mv.terminateSimulation = false ∧ c.mv.nextEventTimeDefined = false)
    {o} (e : iter m c false = .ret (c', .OK, o)) :
    (c'.mv.terminateSimulation = false ∧ c'.mv.nextEventTimeDefined = false) ∧ o = (false, false) := by
  rcases iter_eq_ret hm e with ⟨-, c0, e0, c1, se, te, hp, e1, h⟩ | ⟨h, -⟩
  · have h0 : c0 = c ∧ e0 = false := by
      unfold pendingEvent at hp
      split at hp
      · cases hp; exact ⟨rfl, rfl⟩
      · simp only [Bool.false_eq_true, if_false] at hp; cases hp; exact ⟨rfl, rfl⟩
    obtain ⟨rfl, rfl⟩ := h0
    have hQ : SolverQuiet m (fun c : Comp F D => c.mv.terminateSimulation = false ∧ c.mv.nextEventTimeDefined = false) :=
      { hi.stepQuiet with lift := fun h _ e => hi.step h e, adv := fun h => h }
    have h1 := (Inner.doFixedStep hm hQ hc _ e1).2
    simp only at h1
    rcases h with ⟨-, rfl, rfl⟩ | ⟨h, h2, -⟩ | ⟨eu, h, h2, -⟩
    · exact ⟨h1, by rw [h1.1]⟩
    all_goals
      exfalso
      rcases hq with hq | hq
      · rw [hq] at h; cases h
      · rcases doFixedStep_eq_ret e1 with ⟨c2, c3, se', -, h4, -, rfl, h5⟩ | ⟨h, -⟩ | ⟨h, -⟩
        · have hse : se' = false := by
            unfold detectStateEvent at h4
            rw [hq] at h4
            cases h4; rfl
          have hte : c3.mv.nextEventTimeDefined = false := by
            have := h1.2
            unfold Comp.notify at this
            split at this <;> exact this
          cases h5
          simp [hse, hte] at h2
        · cases h
        · cases h
  · cases h

theorem Loop.eventless (hm : OkOrError m) (hi : MVInv m fun mv => mv.terminateSimulation = false ∧ mv.nextEventTimeDefined = false)
    (hq : m.eventUpdate = none ∨ m.maxNZ = 0) {next : F} {c c' : Comp F D} {ehn n s e r} (h : Loop m next c ehn n c' s e r) :
    c.mv.terminateSimulation = false ∧ c.mv.nextEventTimeDefined = false → ehn = false → s = .OK →
      r = true ∧ e = false ∧ c'.mv.terminateSimulation = false := by
  induction h with
  | done h => rintro h0 rfl -; simp only [Bool.false_and, Bool.or_false] at h; exact ⟨h, rfl, h0.1⟩
  | step _ e _ ih =>
    rintro h0 rfl rfl
    obtain ⟨h1, h2⟩ := iter_eventless hm hi hq h0 e
    cases h2
    exact ih h1 rfl rfl
  | leave _ e =>
    rintro h0 rfl -
    obtain ⟨-, h2⟩ := iter_eventless hm hi hq h0 e
    cases h2
  | error => intro _ _ h; cases h

theorem Promises.eventless (h : Promises m d) {a : CoSimulationAttributes} (ha : d.coSimulation = some a)
    (hr : a.mightReturnEarlyFromDoStep = false) (hs : d ≠ .stair) : Timeless m ∧ (m.eventUpdate = none ∨ m.maxNZ = 0) := by
  cases h with
  | bouncingBall => cases ha; cases hr
  | clocks => cases ha
  | dahlquist => exact ⟨.dahlquist, .inl rfl⟩
  | feedthrough => exact ⟨.feedthrough, .inr rfl⟩
  | resource fs => exact ⟨.resource fs, .inl rfl⟩
  | roberts => cases ha; cases hr
  | stair => exact absurd rfl hs
  | stateSpace => exact ⟨.stateSpace, .inr rfl⟩
  | vanDerPol => exact ⟨.vanDerPol, .inl rfl⟩

/-- **C79**, early return: an FMU whose model description does not declare that `fmi3DoStep` might return early never returns early: after
any history, a step that returns OK reports neither an early return nor a need for event handling nor the end of the simulation, and its
end is the communication point expected next. What is missing: this is false for Stair (`C79_violated_earlyReturn`). -/
theorem C79_earlyReturn_partial (h : Promises m d) {a : CoSimulationAttributes} (ha : d.coSimulation = some a)
    (hr : a.mightReturnEarlyFromDoStep = false) (hs : d ≠ .stair) {t : IType} {w w' : World F D} (hw : Reachable m t w) {fuel : Nat}
    {ccp dt : F} {out o} (e : step m fuel w (.doStep ccp dt out) = .ret (w', .OK, o)) :
    ∃ T, o = .step ⟨some false, some false, some false, some T⟩ ∧ ReadsTime m w' T ∧ w'.inst.clock.expected = ccp +. dt := by
  have hk := h.ref.eff.okOrError
  obtain ⟨hT, hq⟩ := h.eventless ha hr hs
  have hi := (hw.mv hk hT.inv ⟨rfl, rfl⟩).inst
  obtain ⟨-, n, c', ehn, r, -, hl, rfl, rfl⟩ := doStep_loop hk e
  obtain ⟨rfl, rfl, h3⟩ := hl.eventless hk hT.inv hq hi rfl rfl
  exact ⟨_, by simp [h3], reads_time hk h.ref.timeVar _, rfl⟩

end

/-- Stair does not declare that `fmi3DoStep` might return early, but it does at a time event if early return is allowed. -/
theorem C79_violated_earlyReturn : Promises (Stair.model : Model XRat _) .stair ∧
    (∃ a, Description3.stair.coSimulation = some a ∧ a.mightReturnEarlyFromDoStep = false) ∧
    ∃ w w' : World XRat Stair.Data, Reachable Stair.model .coSimulation w ∧ ∃ fuel, step Stair.model fuel w (.doStep (.fin 0) (.fin 2) Ex.stepOut) =
      .ret (w', .OK, .step ⟨some true, some false, some true, some (.fin 1)⟩) := by
  refine ⟨.stair, ⟨_, rfl, rfl⟩, ?_⟩
  obtain ⟨c, hc, hp⟩ := exists_of_any (o := Ex.newCS3 Stair.model true true)
    (p := fun c => (run Stair.model 0 (.fresh c) (Ex.init3 ++ [.enterStepMode])).is fun x =>
      (step Stair.model 100 x.1 (.doStep (.fin 0) (.fin 2) Ex.stepOut)).is fun y =>
        decide (y.2 = (.OK, .step ⟨some true, some false, some true, some (.fin 1)⟩))) (by decide +kernel)
  obtain ⟨⟨w, outs⟩, e1, hp⟩ := Outcome.exists_of_is hp
  obtain ⟨⟨w', y⟩, e2, hp⟩ := Outcome.exists_of_is hp
  simp only [decide_eq_true_eq] at hp
  subst hp
  exact ⟨w, w', ⟨c, .fresh c, 0, _, _, .cs (Prod.ext hc rfl), ⟨rfl, fun _ => rfl, fun _ _ e => by cases e⟩, e1⟩, _, e2⟩

theorem between {s h t : Rat} (h1 : s < t) (h2 : t < s + h) : ¬ OnGrid (.fin s) (.fin h) (.fin t : XRat) := by
  rintro (h3 | ⟨n, -, h3⟩)
  · simp only [XRat.fin.injEq] at h3; linarith
  · simp only [gridPoint, XRat.lit_eq, XRat.mul_fin, XRat.add_fin, XRat.fin.injEq] at h3
    rcases n with _ | n
    · simp at h3; linarith
    · have : (0 : Rat) ≤ (n : Rat) * h := mul_nonneg (Nat.cast_nonneg n) (by linarith)
      push_cast at h3
      linarith

/-- Roberts declares the internal step size 0.001; after a communication step of 0.000001 that succeeds it reports the time 0.000011 (the
tolerance lets it pass the end of the step, C20). -/
theorem C79_violated_stepSize_roberts : Promises (Roberts.model : Model XRat _) .roberts ∧
    ∃ a, Description3.roberts.coSimulation = some a ∧
    ∃ (w w' : World XRat (Roberts.Data XRat)) (fuel : Nat) (ops : List (Op XRat)) (outs : List (Status × Out XRat)) (t : XRat),
      SessionStart Roberts.model (.fin 0) w ∧ (∀ op ∈ ops, ¬ EndsSession op ∧ op.fn ≠ .setTime) ∧
      run Roberts.model fuel w ops = .ret (w', outs) ∧ (∀ x ∈ outs, x.1 = .OK) ∧
      ReadsTime Roberts.model w' t ∧ ¬ OnGrid (.fin 0) (.fin a.fixedInternalStepSize) t := by
  refine ⟨.roberts, _, rfl, ?_⟩
  obtain ⟨c, hc, hp⟩ := exists_of_any (o := Ex.newCS3 Roberts.model false false)
    (p := fun c => (step Roberts.model 0 (.fresh c) (.enterInitializationMode (.fin 0) false (.fin 0))).is
      fun x => decide (x.2 = (.OK, .unit)) && (run Roberts.model 20 x.1 [.exitInitializationMode, .doStep (.fin 0) (.fin (1 / 1000000)) Ex.stepOut]).is
        fun y => y.2.all (fun z => decide (z.1 = .OK)) && decide (y.1.inst.ctx.time = .fin (11 / 1000000)))
    (by decide +kernel)
  obtain ⟨⟨w, s, o⟩, e1, hp⟩ := Outcome.exists_of_is hp
  simp only [Bool.and_eq_true, decide_eq_true_eq, Prod.mk.injEq] at hp
  obtain ⟨⟨rfl, rfl⟩, hp⟩ := hp
  obtain ⟨⟨w', outs⟩, e2, hp⟩ := Outcome.exists_of_is hp
  simp only [Bool.and_eq_true, decide_eq_true_eq, List.all_eq_true] at hp
  have hr : Reachable Roberts.model .coSimulation (World.fresh c) :=
    ⟨c, .fresh c, 0, [], [], .cs (Prod.ext hc rfl), ⟨rfl, fun _ => rfl, fun _ _ e => by cases e⟩, rfl⟩
  refine ⟨w, w', _, _, outs, .fin (11 / 1000000), .init hr e1, ?_, e2, hp.1, ?_, between (by decide +kernel) (by decide +kernel)⟩
  · simp [EndsSession, Op.fn]
  · rw [← hp.2]
    exact reads_time RefFMU3.roberts.eff.okOrError RefFMU3.roberts.timeVar _

/-- StateSpace declares the internal step size 1; after a communication step of 0.001 that succeeds it reports the time 0.001. -/
theorem C79_violated_stepSize_stateSpace : Promises (StateSpace.model : Model XRat _) .stateSpace ∧
    ∃ a, Description3.stateSpace.coSimulation = some a ∧
    ∃ (w w' : World XRat (StateSpace.Data XRat)) (fuel : Nat) (ops : List (Op XRat)) (outs : List (Status × Out XRat)) (t : XRat),
      SessionStart StateSpace.model (.fin 0) w ∧ (∀ op ∈ ops, ¬ EndsSession op ∧ op.fn ≠ .setTime) ∧
      run StateSpace.model fuel w ops = .ret (w', outs) ∧ (∀ x ∈ outs, x.1 = .OK) ∧
      ReadsTime StateSpace.model w' t ∧ ¬ OnGrid (.fin 0) (.fin a.fixedInternalStepSize) t := by
  refine ⟨.stateSpace, _, rfl, ?_⟩
  obtain ⟨c, hc, hp⟩ := exists_of_any (o := Ex.newCS3 StateSpace.model false false)
    (p := fun c => (step StateSpace.model 0 (.fresh c) (.enterInitializationMode (.fin 0) false (.fin 0))).is
      fun x => decide (x.2 = (.OK, .unit)) && (run StateSpace.model 9 x.1 [.exitInitializationMode, .doStep (.fin 0) (.fin (1 / 1000)) Ex.stepOut]).is
        fun y => y.2.all (fun z => decide (z.1 = .OK)) && decide (y.1.inst.ctx.time = .fin (1 / 1000)))
    (by decide +kernel)
  obtain ⟨⟨w, s, o⟩, e1, hp⟩ := Outcome.exists_of_is hp
  simp only [Bool.and_eq_true, decide_eq_true_eq, Prod.mk.injEq] at hp
  obtain ⟨⟨rfl, rfl⟩, hp⟩ := hp
  obtain ⟨⟨w', outs⟩, e2, hp⟩ := Outcome.exists_of_is hp
  simp only [Bool.and_eq_true, decide_eq_true_eq, List.all_eq_true] at hp
  have hr : Reachable StateSpace.model .coSimulation (World.fresh c) :=
    ⟨c, .fresh c, 0, [], [], .cs (Prod.ext hc rfl), ⟨rfl, fun _ => rfl, fun _ _ e => by cases e⟩, rfl⟩
  refine ⟨w, w', _, _, outs, .fin (1 / 1000), .init hr e1, ?_, e2, hp.1, ?_, between (by decide +kernel) (by decide +kernel)⟩
  · simp [EndsSession, Op.fn]
  · rw [← hp.2]
    exact reads_time RefFMU3.stateSpace.eff.okOrError RefFMU3.stateSpace.timeVar _

/-- Non-vacuity of the theorems about instantiation and step sizes: the names and attributes differ. -/
example : (Named (some "i") ∧ Description3.bouncingBall.coSimulation.isSome ∧ Description3.clocks.coSimulation = none ∧
    Description3.bouncingBall ≠ .roberts) ∧ Promises (BouncingBall.model : Model XRat _) .bouncingBall :=
  ⟨⟨⟨"i", rfl, by decide⟩, rfl, rfl, fun h => by have := congrArg Description3.token h; revert this; decide⟩, .bouncingBall⟩

/-- Non-vacuity of `C79_coSimulation_partial`: BouncingBall has an Event Mode, Dahlquist has none. -/
example : (Ex.newCS3 (BouncingBall.model : Model XRat _) true false).isSome = true ∧
    (Ex.newCS3 (Dahlquist.model : Model XRat _) true false).isSome = false ∧
    (Ex.newCS3 (Dahlquist.model : Model XRat _) false false).isSome = true := by decide +kernel

/-- Non-vacuity of `C79_stepSize_partial`: VanDerPol started at 3 reports 3.35, 35 steps of the declared size 0.01. -/
example : (Ex.runCS3 VanDerPol.model false false [.enterInitializationMode (.fin 3) false (.fin 0), .exitInitializationMode,
    .doStep (.fin 3) (.fin (7 / 20)) Ex.stepOut, .get .float64 (some [0]) 1 (some [.fin 7]) 1]).is
    (fun x => Ex.allOK x.2 && decide (Ex.real3 x.2 3 = some (gridPoint (.fin 3) (.fin (1 / 100)) 35))) = true := by decide +kernel

/-- Non-vacuity of `C79_derivatives_partial`: VanDerPol gives the derivative of `der(x1)` by `x0`, Dahlquist refuses. -/
example : (Ex.runME3 (VanDerPol.model : Model XRat _) (Ex.init3 ++ [.getDirectionalDerivative (some [4]) 1 (some [1]) 1 (some [.fin 1])
      (some [.fin 0])])).is (fun x => Ex.allOK x.2) = true ∧
    (Ex.runME3 (Dahlquist.model : Model XRat _) (Ex.init3 ++ [.getDirectionalDerivative (some [2]) 1 (some [1]) 1 (some [.fin 1])
      (some [.fin 0])])).is (fun x => decide (x.2.map (·.1) = [.OK, .OK, .Error])) = true := by decide +kernel

/-- Non-vacuity of `C79_earlyReturn_partial`: early return and Event Mode are allowed, Feedthrough completes the step. -/
example : (Ex.runCS3 (Feedthrough.model true : Model XRat _) true true (Ex.init3 ++ [.enterStepMode, .doStep (.fin 0) (.fin (1 / 2)) Ex.stepOut])).is
    (fun x => decide (x.2.drop 3 = [(.OK, .step ⟨some false, some false, some false, some (.fin (1 / 2))⟩)])) = true := by decide +kernel

end FMI3
end Verif
