import Verif.Lemmas.Keep
import Verif.Lemmas.Reach3
import Verif.Lemmas.Traj
import Verif.Props.C25
import Verif.Spec.Schedule

/-! # Instances before their simulation -/

set_option linter.unusedSectionVars false

namespace Verif
variable {F D : Type} [Arith F] [HasInf F] {m : Model F D}

namespace FMI2

theorem Calls.reachable (hm : OkOrError m) {ok} {w₀ w : World F D} {t : IType} (h₀ : Reachable m t w₀) (h : Calls m ok w₀ w) :
    Reachable m t w := by
  induction h with
  | none => exact h₀
  | call _ _ e ih => exact Reachable.call hm ih e

theorem Prepared.reachable (hm : OkOrError m) {w : World F D} (h : Prepared m w) : Reachable m .coSimulation w := by
  obtain ⟨_, _, _, _, _, _, c, l, w₀, h1, h2, h3⟩ := h
  exact h3.reachable hm ⟨_, _, _, _, _, _, c, l, w₀, 0, [], [], h1, h2, rfl⟩

end FMI2

namespace FMI3

theorem Calls.proper {ok} (hok : ∀ w op, ok w op → op.fn = .enterStepMode → w.inst.ctx.state ≠ .initializationMode)
    {w₀ w : World F D} {t : IType} (h₀ : ReachableProper m t w₀) (h : Calls m ok w₀ w) : ReachableProper m t w := by
  induction h with
  | none => exact h₀
  | call _ ho e ih => exact .call ih e (hok _ _ ho)

theorem ReachableCS.proper {emu era : Bool} {w : World F D} (h : ReachableCS m emu era w) :
    ReachableProper m .coSimulation w := by
  obtain ⟨_, _, _, _, _, _, _, c, l, w₀, h1, h2, h3⟩ := h
  exact h3.proper (fun _ _ h => h) (.new (.cs h1) h2)

theorem Calls.mono {ok ok' : World F D → Op F → Prop} (hok : ∀ w op, ok w op → ok' w op) {w₀ w : World F D} (h : Calls m ok w₀ w) :
    Calls m ok' w₀ w := by
  induction h with
  | none => exact .none
  | call _ ho e ih => exact .call ih (hok _ _ ho) e

theorem Prepared.reachable {emu era : Bool} {w : World F D} (h : Prepared m emu era w) : ReachableCS m emu era w := by
  obtain ⟨_, _, _, _, _, _, _, c, l, w₀, h1, h2, h3⟩ := h
  exact ⟨_, _, _, _, _, _, _, c, l, w₀, h1, h2, h3.mono fun _ _ h h' => absurd (by rw [h']; simp) h⟩

theorem ReachableCS.call {emu era : Bool} {w w' : World F D} (h : ReachableCS m emu era w) {fuel op s o}
    (e : step m fuel w op = .ret (w', s, o)) (hop : op.fn = .enterStepMode → w.inst.ctx.state ≠ .initializationMode) :
    ReachableCS m emu era w' := by
  obtain ⟨_, _, _, _, _, _, _, c, l, w₀, h1, h2, h3⟩ := h
  exact ⟨_, _, _, _, _, _, _, c, l, w₀, h1, h2, h3.call hop e⟩

theorem ReachableCS.switches (hm : OkOrError m) {emu era : Bool} {w : World F D} (h : ReachableCS m emu era w) :
    w.inst.eventModeUsed = emu ∧ w.inst.earlyReturnAllowed = era := by
  obtain ⟨_, _, _, _, _, _, _, c, l, w₀, hn, h2, h3⟩ := h
  have hc : c.earlyReturnAllowed = era ∧ c.eventModeUsed = emu := by
    unfold instantiateCoSimulation at hn
    split at hn
    · simp at hn
    · simp only [Prod.mk.injEq, Option.map_eq_some_iff] at hn
      obtain ⟨⟨c0, -, rfl⟩, -⟩ := hn
      exact ⟨rfl, rfl⟩
  have : WInv (fun c : Comp F D => c.earlyReturnAllowed = era ∧ c.eventModeUsed = emu) w := by
    induction h3 with
    | none => exact .initial h2 hc
    | call _ _ e ih => exact (step_inv hm (switches_inv m _ _) ih _) _ e
  exact ⟨this.inst.2, this.inst.1⟩

end FMI3

/-- A statement about the flags that say when the next event is and whether the simulation ends. -/
def Comp.EventFlags (Q : Bool → F → Bool → Prop) (c : Comp F D) : Prop :=
  Q c.mv.nextEventTimeDefined c.mv.nextEventTime c.mv.terminateSimulation

theorem EventFlags.quiet (he : m.Eff) (Q : Bool → F → Bool → Prop) :
    Quiet m (fun f => f ≠ .event) (Comp.EventFlags (D := D) Q) where
  lift {c f mv' s} h hT e := by
    obtain ⟨h1, -, -, h4, h5⟩ := (he _ _ _ _ _ e).flags hT
    unfold Comp.EventFlags at h ⊢
    simp only [h1, h4, h5]
    exact h
  log msg h := by
    unfold Comp.logError logError
    split <;> exact h
  dirty b h := h

theorem FMI2.EventFlags.callInv (he : m.Eff) {Q : Bool → F → Bool → Prop}
    (hs : ∀ ctx mv, Q mv.nextEventTimeDefined mv.nextEventTime mv.terminateSimulation →
      Q (m.setStartValues ctx mv).nextEventTimeDefined (m.setStartValues ctx mv).nextEventTime
        (m.setStartValues ctx mv).terminateSimulation) :
    FMI2.CallInvX (fun fn => fn ∈ [FMI2.Fn.doStep, .newDiscreteStates, .setFMUstate]) (fun f => f ≠ .event) m (fun _ => True)
      (Comp.EventFlags Q) :=
  { EventFlags.quiet he Q with
    calls := by
      intro fn hX f hf
      cases fn <;> simp [FMI2.Fn.calls] at hX hf ⊢ <;> first | (subst hf; simp) | (rcases hf with rfl | rfl <;> simp)
    step := fun h => absurd (by simp) h
    nx := fun _ _ h => h
    nz := fun _ _ h => h
    prez := fun _ _ _ h => h
    term := fun h => h
    setup := fun _ _ _ _ h _ => h
    enterInit := fun _ _ h _ => h
    reset := fun _ c h => by
      unfold Verif.reset
      exact Outcome.all_ret.2 (hs _ _ h)
    restore := fun h => absurd (by simp) h
    enterEvent := fun _ _ h _ => h
    enterCT := fun _ _ h _ => h
    setTime := fun _ _ _ h _ => h
    exitInit := fun _ _ h _ => h }

theorem FMI3.EventFlags.callInv (he : m.Eff) {Q : Bool → F → Bool → Prop}
    (hs : ∀ ctx mv, Q mv.nextEventTimeDefined mv.nextEventTime mv.terminateSimulation →
      Q (m.setStartValues ctx mv).nextEventTimeDefined (m.setStartValues ctx mv).nextEventTime
        (m.setStartValues ctx mv).terminateSimulation) :
    FMI3.CallInvX (fun fn => fn ∈ [FMI3.Fn.doStep, .updateDiscreteStates, .setFMUState, .enterStepMode]) (fun f => f ≠ .event) m
      (fun _ => True) (Comp.EventFlags Q) :=
  { EventFlags.quiet he Q with
    calls := by
      intro fn hX f hf
      cases fn <;> simp [FMI3.Fn.calls] at hX hf ⊢ <;> first | (subst hf; simp) | (rcases hf with rfl | rfl <;> simp)
    step := fun h => absurd (by simp) h
    nx := fun _ _ h => h
    nz := fun _ _ h => h
    prez := fun _ _ _ h => h
    term := fun h => h
    enterInit := fun _ _ _ _ h _ => h
    enterConfig := fun _ _ h _ => h
    exitConfig := fun _ _ h _ => h
    reset := fun _ c h => by
      unfold Verif.reset
      exact Outcome.all_ret.2 (hs _ _ h)
    restore := fun h => absurd (by simp) h
    enterEvent := fun _ _ h _ => h
    enterCT := fun _ _ h _ => h
    setTime := fun _ _ _ h _ => h
    enterStep := fun _ _ h _ => h
    exitInit := fun _ _ h _ => h }

theorem FMI2.Prepared.flags (he : m.Eff) {Q : Bool → F → Bool → Prop}
    (hs : ∀ ctx mv, Q mv.nextEventTimeDefined mv.nextEventTime mv.terminateSimulation →
      Q (m.setStartValues ctx mv).nextEventTimeDefined (m.setStartValues ctx mv).nextEventTime
        (m.setStartValues ctx mv).terminateSimulation)
    (h0 : ∀ ctx mv, mv.terminateSimulation = false → mv.nextEventTimeDefined = false → mv.nextEventTime = Arith.lit 0 →
      Q (m.setStartValues ctx mv).nextEventTimeDefined (m.setStartValues ctx mv).nextEventTime
        (m.setStartValues ctx mv).terminateSimulation)
    {w : World F D} (h : Prepared m w) : w.inst.EventFlags Q := by
  obtain ⟨_, _, _, _, _, _, c, l, w₀, h1, h2, h3⟩ := h
  induction h3 with
  | none =>
    rw [h2.inst]
    unfold instantiate at h1
    split at h1
    · simp at h1
    · simp at h1
    unfold Comp.EventFlags
    rw [createModelInstance_mv h1]
    exact h0 _ _ rfl rfl rfl
  | call _ ho e ih => exact step_keepX he.okOrError (EventFlags.callInv he hs) (fun _ _ _ _ => trivial) ih (fun _ => fun _ _ h => h) ho _ e

theorem FMI3.Prepared.flags (he : m.Eff) {Q : Bool → F → Bool → Prop}
    (hs : ∀ ctx mv, Q mv.nextEventTimeDefined mv.nextEventTime mv.terminateSimulation →
      Q (m.setStartValues ctx mv).nextEventTimeDefined (m.setStartValues ctx mv).nextEventTime
        (m.setStartValues ctx mv).terminateSimulation)
    (h0 : ∀ ctx mv, mv.terminateSimulation = false → mv.nextEventTimeDefined = false → mv.nextEventTime = Arith.lit 0 →
      Q (m.setStartValues ctx mv).nextEventTimeDefined (m.setStartValues ctx mv).nextEventTime
        (m.setStartValues ctx mv).terminateSimulation)
    {emu era : Bool} {w : World F D} (h : Prepared m emu era w) : w.inst.EventFlags Q := by
  obtain ⟨_, _, _, _, _, _, _, c, l, w₀, h1, h2, h3⟩ := h
  induction h3 with
  | none =>
    rw [h2.inst]
    obtain ⟨_, _, _, _, _, _, _, _, _, _, _, _, _, _, h4, rfl⟩ := (New.cs h1).created
    unfold Comp.EventFlags
    simp only
    rw [createModelInstance_mv h4]
    exact h0 _ _ rfl rfl rfl
  | call _ ho e ih => exact step_keepX he.okOrError (EventFlags.callInv he hs) (fun _ _ _ _ => trivial) ih (fun _ => fun _ _ h => h) ho _ e

end Verif
