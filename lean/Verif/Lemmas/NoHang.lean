import Verif.RefFMUs
import Verif.Lemmas.Loop
import Verif.Lemmas.Traj
import Verif.Lemmas.Reached

/-! # Which calls of `DoStep` return -/

set_option linter.unusedSectionVars false

namespace Verif

/-- The function returns or executes undefined behaviour. -/
def Outcome.Ends {α : Type} (o : Outcome α) : Prop := o ≠ .hang

namespace Outcome.Ends
variable {α β : Type}

theorem ret (a : α) : (Outcome.ret a).Ends := nofun
theorem ub : (Outcome.ub : Outcome α).Ends := nofun
theorem bind {o : Outcome α} {f : α → Outcome β} (h : o.Ends) (hf : ∀ a, (f a).Ends) : (o >>- f).Ends := by
  cases o with
  | ret a => exact hf a
  | ub => exact .ub
  | hang => exact absurd rfl h
theorem bind' {o : Outcome α} {f : α → Outcome β} (h : o.Ends) (hf : ∀ a, o = .ret a → (f a).Ends) : (o >>- f).Ends := by
  cases o with
  | ret a => exact hf a rfl
  | ub => exact .ub
  | hang => exact absurd rfl h
theorem ite {p : Prop} [Decidable p] {a b : Outcome α} (ha : a.Ends) (hb : b.Ends) : (if p then a else b).Ends := by
  split <;> assumption
theorem readPtr (p : Ptr α) (i : Nat) : (p.read i).Ends := by
  unfold Ptr.read; repeat' split
  all_goals first | exact .ret _ | exact .ub
theorem writePtr (p : Ptr α) (i : Nat) (v : α) : (p.write i v).Ends := by
  unfold Ptr.write; repeat' split
  all_goals first | exact .ret _ | exact .ub
theorem writeN (p : Ptr α) (i : Nat) (vs : List α) : (writeN p i vs).Ends := by
  induction vs generalizing p i with
  | nil => exact .ret _
  | cons v vs ih => exact .bind (.writePtr _ _ _) fun p => ih p _
theorem readN (p : Ptr α) (i n : Nat) : (readN p i n).Ends := by
  induction n generalizing i with
  | zero => exact .ret _
  | succ n ih => exact .bind (.readPtr _ _) fun a => .bind (ih _) fun _ => .ret _
end Outcome.Ends

section
variable {F D : Type}
open Outcome.Ends

theorem Ends.failM {α : Type} (ctx : Ctx F) (mv : MV F D) (msg : String) (a : α) : (failM ctx mv msg a).Ends := .ret _

theorem Ends.vecStub (ctx : Ctx F) (mv : MV F D) (p : Ptr F) (n : Nat) : (vecStub ctx mv p n).Ends := by
  unfold Verif.vecStub assertSize
  repeat' split
  all_goals first | exact .ret _ | exact .ub

theorem Ends.putVector (ctx : Ctx F) (mv mv' : MV F D) (p : Ptr F) (n : Nat) (vs : List F) :
    (putVector ctx mv mv' p n vs).Ends := by
  unfold Verif.putVector assertNotNull assertSize
  repeat' split
  all_goals first | exact Ends.failM _ _ _ _ | exact .bind (.writeN _ _ _) fun _ => .ret _

theorem Ends.takeVector (ctx : Ctx F) (mv : MV F D) (p : Ptr F) (n e : Nat) (upd) :
    (takeVector ctx mv p n e upd).Ends := by
  unfold Verif.takeVector assertNotNull assertSize
  repeat' split
  all_goals first | exact Ends.failM _ _ _ _ | exact .bind (.readN _ _ _) fun _ => .ret _

/-- The functions of `model.c` called by `DoStep` return. -/
structure Model.Ends (m : Model F D) : Prop where
  getX : ∀ ctx mv p n, (m.getContinuousStates ctx mv p n).Ends
  getDX : ∀ ctx mv p n, (m.getDerivatives ctx mv p n).Ends
  setX : ∀ ctx mv p n, (m.setContinuousStates ctx mv p n).Ends
  getZ : ∀ ctx mv p n, (m.getEventIndicators ctx mv p n).Ends
  event : ∀ eu, m.eventUpdate = some eu → ∀ ctx mv, (eu ctx mv).Ends

variable [Arith F]

theorem StateSpace.guarded_ends {α : Type} {d : StateSpace.Data F} {k : Outcome α} (h : k.Ends) :
    (StateSpace.guarded d k).Ends := by
  unfold StateSpace.guarded
  split
  · assumption
  · exact .ub

theorem StateSpace.ends : (StateSpace.model (F := F)).Ends where
  getX := by
    intro ctx mv p n
    simp only [StateSpace.model, assertNotNull, StateSpace.checkNx]
    repeat' split
    all_goals first | exact Ends.failM _ _ _ _ | skip
    exact StateSpace.guarded_ends (.bind (.writeN _ _ _) fun _ => .ret _)
  getDX := by
    intro ctx mv p n
    simp only [StateSpace.model, assertNotNull, StateSpace.checkNx]
    repeat' split
    all_goals first | exact Ends.failM _ _ _ _ | skip
    exact .bind (StateSpace.guarded_ends (.ret _)) fun _ => .bind (.writeN _ _ _) fun _ => .ret _
  setX := by
    intro ctx mv p n
    simp only [StateSpace.model, assertNotNull, StateSpace.checkNx]
    repeat' split
    all_goals first | exact Ends.failM _ _ _ _ | skip
    exact StateSpace.guarded_ends (.bind (.readN _ _ _) fun _ => .ret _)
  getZ := fun _ _ _ _ => Ends.vecStub _ _ _ _
  event := by intro eu h ctx mv; cases h; exact .ret _

theorem Stair.ends : (Stair.model (F := F)).Ends where
  getX := fun _ _ _ _ => Ends.vecStub _ _ _ _
  getDX := fun _ _ _ _ => Ends.vecStub _ _ _ _
  setX := fun _ _ _ _ => Ends.vecStub _ _ _ _
  getZ := fun _ _ _ _ => Ends.vecStub _ _ _ _
  event := by
    intro eu h ctx mv; cases h
    unfold Stair.eventUpdate
    refine .bind ?_ fun mv => ?_
    · repeat' split
      all_goals first | exact .ret _ | exact .ub
    · split
      · exact Ends.failM _ _ _ _
      · exact .ret _

theorem RefFMU3.ends {m : Model F D} (hm : RefFMU3 m) : m.Ends := by
  cases hm
  case stateSpace => exact StateSpace.ends
  case stair => exact Stair.ends
  all_goals
    refine ⟨?_, ?_, ?_, ?_, ?_⟩
    · intro ctx mv p n
      first | exact Ends.vecStub _ _ _ _ | exact Ends.putVector _ _ _ _ _ _
    · intro ctx mv p n
      first | exact Ends.vecStub _ _ _ _ | exact Ends.putVector _ _ _ _ _ _
    · intro ctx mv p n
      first | exact Ends.vecStub _ _ _ _ | exact Ends.takeVector _ _ _ _ _ _
    · intro ctx mv p n
      first | exact Ends.vecStub _ _ _ _ | exact Ends.putVector _ _ _ _ _ _
    · intro eu h ctx mv
      first | (cases h; done) | (cases h; exact .ret _)

theorem RefFMU2.ends {m : Model F D} (hm : RefFMU2 m) : m.Ends := by
  cases hm
  case stair => exact Stair.ends
  all_goals
    refine ⟨?_, ?_, ?_, ?_, ?_⟩
    · intro ctx mv p n
      first | exact Ends.vecStub _ _ _ _ | exact Ends.putVector _ _ _ _ _ _
    · intro ctx mv p n
      first | exact Ends.vecStub _ _ _ _ | exact Ends.putVector _ _ _ _ _ _
    · intro ctx mv p n
      first | exact Ends.vecStub _ _ _ _ | exact Ends.takeVector _ _ _ _ _ _
    · intro ctx mv p n
      first | exact Ends.vecStub _ _ _ _ | exact Ends.putVector _ _ _ _ _ _
    · intro eu h ctx mv
      first | (cases h; done) | (cases h; exact .ret _)

omit [Arith F] in
theorem Ends.lift {β : Type} {c : Comp F D} {r : MRes F D β} (h : r.Ends) : (c.lift r).Ends := .bind h fun _ => .ret _

omit [Arith F] in
theorem Ends.callCo {α β : Type} {r : Res F D α} {stop : β} {k : Comp F D → α → Res F D β} (h : r.Ends)
    (hk : ∀ c a, (k c a).Ends) : (callCo r stop k).Ends := by
  refine .bind h fun x => ?_
  exact .ite (.ret _) (hk _ _)

omit [Arith F] in
theorem Ends.call {α β : Type} {st : Status} {r : Res F D α} {stop : α → β} {k : Comp F D → Status → α → Res F D β}
    (h : r.Ends) (hk : ∀ c s a, (k c s a).Ends) : (call st r stop k).Ends := by
  unfold Verif.call
  refine .bind h fun x => ?_
  simp only
  repeat' split
  all_goals first | exact .ret _ | exact hk _ _ _

variable {m : Model F D}

theorem Ends.fixedStep (hm : m.Ends) (c : Comp F D) : (doFixedStep m c).Ends := by
  unfold doFixedStep
  refine Ends.callCo ?_ fun c _ => Ends.callCo ?_ fun _ _ => .ret _
  · unfold eulerStep
    split
    · exact Ends.callCo (Ends.lift (hm.getX _ _ _ _)) fun _ _ => Ends.callCo (Ends.lift (hm.getDX _ _ _ _))
        fun _ _ => Ends.callCo (Ends.lift (hm.setX _ _ _ _)) fun _ _ => .ret _
    · exact .ret _
  · unfold detectStateEvent
    split
    · exact Ends.callCo (Ends.lift (hm.getZ _ _ _ _)) fun _ _ => .ret _
    · exact .ret _

theorem FMI2.iter_ends (hm : m.Ends) (c : Comp F D) : (FMI2.iter m c).Ends := by
  unfold FMI2.iter
  refine Ends.call (Ends.fixedStep hm c) fun c st ev => ?_
  unfold FMI2.handleEvents
  cases he : m.eventUpdate with
  | none => exact .ret _
  | some eu =>
    cases ev with
    | none => exact .ub
    | some p =>
      simp only
      split
      · exact Ends.call (Ends.lift (hm.event eu he _ _)) fun _ _ _ => .ret _
      · exact .ret _

theorem FMI3.iter_ends (hm : m.Ends) (c : Comp F D) (ehn : Bool) : (FMI3.iter m c ehn).Ends := by
  unfold FMI3.iter
  refine .bind ?_ fun x => Ends.call (Ends.fixedStep hm _) fun c st ev => ?_
  · unfold FMI3.pendingEvent
    cases he : m.eventUpdate with
    | none => exact .ret _
    | some eu =>
      simp only
      split
      · exact .bind (Ends.lift (hm.event eu he _ _)) fun _ => .ret _
      · exact .ret _
  · cases he : m.eventUpdate with
    | none => exact .ret _
    | some eu =>
      cases ev with
      | none => exact .ub
      | some p =>
        simp only
        have early : ∀ (c : Comp F D) (st : Status) (ehn : Bool), Outcome.Ends (if c.earlyReturnAllowed = true then
            (.ret (c, st, (ehn, true)) : Res F D (Bool × Bool)) else .ret (c, st, (ehn, c.mv.terminateSimulation))) := by
          intro c st ehn; split <;> exact .ret _
        split
        · split
          · exact early _ _ _
          · unfold FMI3.internalEvent
            refine Ends.call (Ends.lift (hm.event eu he _ _)) fun _ _ _ => ?_
            split
            · exact Ends.call (Ends.lift (hm.getZ _ _ _ _)) fun _ _ _ => early _ _ _
            · exact early _ _ _
        · exact .ret _

/-! ## No events: a solver step always succeeds -/

theorem FMI2.iter_total (o : Ode m) (hn : m.eventUpdate = none) {c : Comp F D} (h : o.Ready c) :
    ∃ c', FMI2.iter m c = .ret (c', .OK, ()) ∧ o.Ready c' ∧ Frame (advanceTime m c) c' ∧
      c'.mv.terminateSimulation = c.mv.terminateSimulation := by
  obtain ⟨c', e, h1, h2, -, -, h3⟩ := o.fixedStep_eq h
  refine ⟨c', ?_, h1, h2, by rw [h3]⟩
  unfold FMI2.iter FMI2.handleEvents
  rw [hn]
  simp [Verif.call, e, Status.rank]

theorem FMI3.iter_total (o : Ode m) (hn : m.eventUpdate = none) {c : Comp F D} (h : o.Ready c) (ehn : Bool) :
    ∃ c', FMI3.iter m c ehn = .ret (c', .OK, (ehn, c'.mv.terminateSimulation)) ∧ o.Ready c' ∧
      Frame (advanceTime m c) c' ∧ c'.mv.terminateSimulation = c.mv.terminateSimulation := by
  obtain ⟨c', e, h1, h2, -, -, h3⟩ := o.fixedStep_eq h
  refine ⟨c', ?_, h1, h2, by rw [h3]⟩
  unfold FMI3.iter FMI3.pendingEvent
  rw [hn]
  simp [Verif.call, e, Status.rank]

/-- If the end is never reached and the FMU never asks for termination, the loop does not end. -/
theorem FMI2.hangs (o : Ode m) (hk : OkOrError m) (hn : m.eventUpdate = none) {next : F} (P : Comp F D → Prop)
    (hP : ∀ c, P c → reached m next c = false) (hs : ∀ c c', P c → Frame (advanceTime m c) c' → P c')
    {c : Comp F D} (h : o.Ready c) (ht : c.mv.terminateSimulation = false) (hc : P c) (fuel : Nat) :
    FMI2.doStepLoop m next fuel c .OK = .hang := by
  induction fuel generalizing c with
  | zero => rfl
  | succ fuel ih =>
    obtain ⟨c', e, h1, h2, h3⟩ := FMI2.iter_total o hn h
    rw [FMI2.doStepLoop_succ hk, hP c hc, e]
    simp [h3.trans ht, ih h1 (h3.trans ht) (hs _ _ hc h2)]

theorem FMI3.hangs (o : Ode m) (hk : OkOrError m) (hn : m.eventUpdate = none) {next : F} (P : Comp F D → Prop)
    (hP : ∀ c, P c → reached m next c = false) (hs : ∀ c c', P c → Frame (advanceTime m c) c' → P c')
    {c : Comp F D} (h : o.Ready c) (ht : c.mv.terminateSimulation = false) (hc : P c) (fuel : Nat) {out} :
    FMI3.doStepLoop m next out fuel c .OK false = .hang := by
  induction fuel generalizing c with
  | zero => rfl
  | succ fuel ih =>
    obtain ⟨c', e, h1, h2, h3⟩ := FMI3.iter_total o hn h false
    rw [FMI3.doStepLoop_succ hk, hP c hc, e]
    simp [h3.trans ht, ih h1 (h3.trans ht) (hs _ _ hc h2)]

end

section
variable {D : Type} {m : Model XRat D}

/-- Far enough behind the end point the loop stops. -/
theorem Reach.of_far {h q t : Rat} (h0 : 0 ≤ h) (ht : 2 * |q| + 1 ≤ t) : Reach h q t := by
  have hq := le_abs_self q
  have hq' := neg_le_abs q
  have hq0 := abs_nonneg q
  have hx : 0 ≤ t + h := by linarith
  refine ⟨by linarith, fun hc => ?_⟩
  unfold Close tol at hc
  rw [abs_of_nonneg (by linarith : 0 ≤ t + h - q), abs_of_nonneg hx] at hc
  rcases hc with hc | hc
  · linarith
  · rw [max_eq_left (by linarith)] at hc
    linarith

theorem FMI2.loop_ends (hm : m.Ends) (hk : OkOrError m) {h s q : Rat} (hh : m.h = .fin h) (h0 : 0 ≤ h) :
    ∀ {K : Nat} {t : Rat} {c : Comp XRat D} {fuel : Nat}, Ticks h s t c → c.nSteps + K < 2 ^ 64 →
    2 * |q| + 1 ≤ t + K * h → K < fuel → (FMI2.doStepLoop m (.fin q) fuel c .OK).Ends := by
  intro K
  induction K with
  | zero =>
    intro t c fuel hT _ hb hf
    obtain ⟨fuel, rfl⟩ : ∃ f, fuel = f + 1 := ⟨fuel - 1, by omega⟩
    rw [FMI2.doStepLoop_succ hk, if_pos ((reached_fin hh hT.time).2 (.of_far h0 (by simpa using hb)))]
    exact .ret _
  | succ K ih =>
    intro t c fuel hT hn hb hf
    obtain ⟨fuel, rfl⟩ : ∃ f, fuel = f + 1 := ⟨fuel - 1, by omega⟩
    rw [FMI2.doStepLoop_succ hk]
    refine .ite (.ret _) (.bind' (FMI2.iter_ends hm c) fun x hx => ?_)
    obtain ⟨c1, s1, b⟩ := x
    simp only
    split
    · next hs =>
      subst hs
      obtain ⟨h1, h2⟩ := hT.advance hh (by omega) (FMI2.iter_frame hk hx)
      refine .ite (.ret _) (ih h1 (by omega) ?_ (by omega))
      push_cast at hb
      linarith
    · exact .ret _

theorem FMI3.loop_ends (hm : m.Ends) (hk : OkOrError m) {h s q : Rat} (hh : m.h = .fin h) (h0 : 0 ≤ h) {out} :
    ∀ {K : Nat} {t : Rat} {c : Comp XRat D} {fuel : Nat} {ehn}, Ticks h s t c → c.nSteps + K < 2 ^ 64 →
    2 * |q| + 1 ≤ t + K * h → K < fuel → (FMI3.doStepLoop m (.fin q) out fuel c .OK ehn).Ends := by
  have hend : ∀ (next : XRat) (c : Comp XRat D) e r, (FMI3.doStepEnd next out c .OK e r).Ends := by
    intro next c e r
    unfold FMI3.doStepEnd
    split
    · exact .ub
    · exact .ret _
  intro K
  induction K with
  | zero =>
    intro t c fuel ehn hT _ hb hf
    obtain ⟨fuel, rfl⟩ : ∃ f, fuel = f + 1 := ⟨fuel - 1, by omega⟩
    rw [FMI3.doStepLoop_succ hk, (reached_fin hh hT.time).2 (.of_far h0 (by simpa using hb)), Bool.true_or, if_pos rfl]
    exact hend _ _ _ _
  | succ K ih =>
    intro t c fuel ehn hT hn hb hf
    obtain ⟨fuel, rfl⟩ : ∃ f, fuel = f + 1 := ⟨fuel - 1, by omega⟩
    rw [FMI3.doStepLoop_succ hk]
    refine .ite (hend _ _ _ _) (.bind' (FMI3.iter_ends hm c ehn) fun x hx => ?_)
    obtain ⟨c1, s1, e1, b⟩ := x
    simp only
    split
    · next hs =>
      subst hs
      obtain ⟨h1, h2⟩ := hT.advance hh (by omega) (FMI3.iter_frame hk hx)
      refine .ite (hend _ _ _ _) (ih h1 (by omega) ?_ (by omega))
      push_cast at hb
      linarith
    · exact .ret _

end
end Verif
