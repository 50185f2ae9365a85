import Verif.Lemmas.NoUbRef
import Verif.Lemmas.Store

/-!
# Calls without undefined behaviour: reachable worlds

The numbers of states and event indicators never exceed the lengths of the arrays, and the counter of
Stair cannot overflow in FMI 2.0, nor in FMI 3.0 before 2^31 - 11 calls.
-/

set_option linter.unusedSectionVars false

namespace Verif
variable {F D : Type} [Arith F] [HasInf F] {m : Model F D}

/-- The numbers of states and event indicators fit the arrays. -/
def Comp.FitsArrays (m : Model F D) (J : MV F D → Prop) (c : Comp F D) : Prop :=
  J c.mv ∧ c.nx ≤ m.maxNX ∧ c.nz ≤ m.maxNZ

section
variable {J : MV F D → Prop} (hJ : MVInv m J) (hx : ∀ mv, J mv → m.numContinuousStates mv ≤ m.maxNX)
  (hz : ∀ mv, J mv → m.numEventIndicators mv ≤ m.maxNZ)
include hJ hx hz

theorem Comp.FitsArrays.stepQuiet : StepQuiet m (Comp.FitsArrays m J) where
  lift h _ e := ⟨hJ.step h.1 e, h.2⟩
  log msg h := by
    refine ⟨hJ.log msg h.1, ?_⟩
    exact h.2
  dirty b h := ⟨hJ.dirty b h.1, h.2⟩
  adv h _ := h
  iu h _ := ⟨hJ.trace _ h.1, h.2⟩
  ncp _ h := h
  nx h := ⟨h.1, hx _ h.1, h.2.2⟩
  nz h := ⟨h.1, h.2.1, hz _ h.1⟩
  x _ h := h
  dx _ h := h
  z _ h := h
  prez _ h := h

theorem Comp.FitsArrays.restore {c s : Comp F D} (h : c.FitsArrays m J) (hs : s.FitsArrays m J) :
    (setFMUState m c s).FitsArrays m J := by
  refine ⟨hJ.trace _ hs.1, ?_, ?_⟩
  · show (if m.maxNX > 0 then s.nx else c.nx) ≤ _
    split
    · exact hs.2.1
    · exact h.2.1
  · show (if m.maxNZ > 0 then s.nz else c.nz) ≤ _
    split
    · exact hs.2.2
    · exact h.2.2

theorem Comp.FitsArrays.reset {c : Comp F D} (h : c.FitsArrays m J) :
    (Verif.reset m c).All fun x => x.1.FitsArrays m J := by
  unfold Verif.reset
  refine Outcome.all_ret.2 ⟨?_, h.2⟩
  simpa [Comp.setState, Comp.setTime, Comp.setDirty] using hJ.dirty _ (hJ.start h.1)

theorem FMI2.HistInv.fits : FMI2.HistInv m (Comp.FitsArrays m J) where
  toStepQuiet := Comp.FitsArrays.stepQuiet hJ hx hz
  flags _ _ h := h
  term h := h
  setup _ _ h _ := h
  enterInit h _ := h
  exitInit h _ := h
  reset h := Comp.FitsArrays.reset hJ hx hz h
  restore h hs := Comp.FitsArrays.restore hJ hx hz h hs
  enterEvent h _ := h
  enterCT h _ := h
  setTime _ h _ := h

theorem FMI3.HistInv.fits : FMI3.HistInv m (Comp.FitsArrays m J) where
  toStepQuiet := Comp.FitsArrays.stepQuiet hJ hx hz
  flags _ _ h := h
  term h := h
  enterInit _ _ h _ := h
  exitInit h _ := h
  enterConfig h _ := h
  exitConfig h _ := h
  reset h := Comp.FitsArrays.reset hJ hx hz h
  restore h hs := Comp.FitsArrays.restore hJ hx hz h hs
  enterEvent h _ := h
  enterCT h _ := h
  enterStep h _ := h
  setTime _ h _ := h

end

theorem createModelInstance_sizes {c : Comp F D} {ver3 logger iu name token resource loggingOn mem typ l}
    (h : createModelInstance m ver3 logger iu name token resource loggingOn mem typ = (some c, l)) :
    c.nx = 0 ∧ c.nz = 0 := by
  unfold createModelInstance at h
  simp only at h
  repeat' split at h
  all_goals first | (simp at h; done) | skip
  obtain ⟨h, -⟩ := Prod.mk.inj h
  cases h
  exact ⟨rfl, rfl⟩

variable {E : VType → Prop} {K : Ctx F → Prop} {J Q : MV F D → Prop}

theorem FMI2.Reachable.sound (hm : RefFMU2 m) (S : m.Safe E K J Q) (hJ : MVInv m J) (h0 : J (MV.zero m)) {t : IType}
    {w : FMI2.World F D} (h : FMI2.Reachable m t w) (hK : K w.inst.ctx) : w.inst.Sound m K J := by
  obtain ⟨E, hr, hE⟩ := hm.respects
  have hf := Reachable.inv S.okOrError (FMI2.HistInv.fits hJ (fun _ h => S.nx h) (fun _ h => S.nz h)) (by
    intro _ _ _ _ _ _ c l hc
    unfold instantiate at hc
    split at hc
    · simp at hc
    · simp at hc
    · have hs := createModelInstance_sizes hc
      refine ⟨?_, by omega, by omega⟩
      rw [createModelInstance_mv hc]
      exact hJ.dirty _ (hJ.start h0)) h
  exact ⟨hK, hf.inst.1, (h.self hr hE).inst.lens, hf.inst.2.1, hf.inst.2.2⟩

theorem FMI3.Reachable.sound (hm : RefFMU3 m) (S : m.Safe E K J Q) (hJ : MVInv m J) (h0 : J (MV.zero m)) {t : IType}
    {w : FMI3.World F D} (h : FMI3.Reachable m t w) (hK : K w.inst.ctx) : w.inst.Sound m K J := by
  obtain ⟨E, hr, hE⟩ := hm.respects
  have hf := Reachable.inv S.okOrError (FMI3.HistInv.fits hJ (fun _ h => S.nx h) (fun _ h => S.nz h)) (by
    intro c hc
    obtain ⟨_, _, _, _, _, _, _, c₀, _, _, _, _, _, _, e, rfl⟩ := hc.created
    have hs := createModelInstance_sizes e
    refine ⟨?_, by simp only; omega, by simp only; omega⟩
    simp only
    rw [createModelInstance_mv e]
    exact hJ.dirty _ (hJ.start h0)) h
  exact ⟨hK, hf.inst.1, (h.self hr hE).inst.lens, hf.inst.2.1, hf.inst.2.2⟩

theorem MVInv.true : MVInv m fun _ => True := ⟨fun _ _ => trivial, fun _ _ => trivial, fun _ _ => trivial, fun _ => trivial⟩

namespace Stair

/-- The counter is at most `n`. -/
def Lim (n : Int) (c : Comp F Data) : Prop := c.mv.data.counter ≤ n

theorem eventUpdate_lim {ctx : Ctx F} {mv mv' : MV F Data} {s u} (e : eventUpdate ctx mv = .ret (mv', s, u)) :
    mv'.data.counter ≤ mv.data.counter + 1 ∧ (s = .OK ∧ mv'.data.counter ≤ 10 ∨ s = .Error) := by
  unfold eventUpdate at e
  obtain ⟨mv1, e1, e⟩ := Outcome.bind_eq_ret.1 e
  have h1 : mv1.data.counter ≤ mv.data.counter + 1 := by
    split at e1
    · split at e1
      · cases e1
      · cases e1; exact Int.le_refl _
    · cases e1; omega
  split at e
  · have := failM_data e
    refine ⟨by rw [this.1]; exact h1, .inr ?_⟩
    unfold failM at e
    cases e; rfl
  · cases e
    exact ⟨h1, .inl ⟨rfl, by simp only; omega⟩⟩

theorem lim_quiet {n : Int} (hn : 9 ≤ n) : Quiet (model : Model F Data) (fun f => f ≠ .event) (Lim n) where
  lift {c f mv' s} h hf e := by
    show _ ≤ _
    have h : c.mv.data.counter ≤ n := h
    by_cases h2 : f = .set
    · subst h2
      cases e with
      | set e =>
        rcases set_data e with h3 | h3
        · simp only [h3]; exact h
        · simp only; omega
    · simp only [step_data h2 hf e]; exact h
  log msg h := by
    unfold Comp.logError Verif.logError
    split <;> exact h
  dirty b h := h

theorem fixedStep_lim {n : Int} {c : Comp F Data} (hb : Bounded c.mv) (h : Lim n c) :
    (doFixedStep (model : Model F Data) c).All fun x => x.2.1 = .OK ∧ Bounded x.1.mv ∧ Lim n x.1 := by
  simp only [doFixedStep, eulerStep, detectStateEvent, callCo, model, Nat.lt_irrefl, if_false, gt_iff_lt, Outcome.ret_bind]
  refine Outcome.all_ret.2 ⟨rfl, ?_⟩
  split
  · exact ⟨hb, h⟩
  · exact ⟨hb, h⟩

/-- `CALL(eventUpdate(S))`. -/
theorem callEvent_all {β : Type} {n : Int} {c : Comp F Data} {stop : Unit → β} {k : Comp F Data → Status → Unit → Res F Data β}
    {R : Comp F Data × Status × β → Prop} (hb : Bounded c.mv) (h : Lim n c)
    (ok : ∀ c', Bounded c'.mv → Lim 10 c' → Lim (n + 1) c' → (k c' .OK ()).All R)
    (err : ∀ c', Bounded c'.mv → Lim (n + 1) c' → R (c'.setState .terminated, .Error, stop ())) :
    (call .OK (c.lift (eventUpdate c.ctx c.mv)) stop k).All R := by
  have h : c.mv.data.counter ≤ n := h
  unfold call Comp.lift
  refine Outcome.All.bind (R := fun x => Bounded x.1.mv ∧ Lim (n + 1) x.1 ∧ (x.2.1 = .OK ∧ Lim 10 x.1 ∨ x.2.1 = .Error)) ?_ ?_
  · refine Outcome.All.bind Outcome.all_self ?_
    rintro ⟨mv', s, u⟩ e
    have he := eventUpdate_lim e
    refine Outcome.all_ret.2 ⟨bounded.step hb (.event rfl e), ?_, he.2⟩
    have := he.1
    show mv'.data.counter ≤ _
    omega
  · rintro ⟨c2, s2, u⟩ ⟨hb, ha, hc⟩
    simp only at ha hb hc
    rcases hc with ⟨rfl, hc⟩ | rfl
    · exact ok _ hb hc ha
    · exact Outcome.all_ret.2 (err _ hb ha)

end Stair

namespace FMI2
open Stair (Lim)

/-- The invariant of the counter of Stair. -/
def StairLim (c : Comp F Stair.Data) : Prop := Lim 10 c ∨ Lim 11 c ∧ c.ctx.state = .terminated

theorem StairLim.running {c : Comp F Stair.Data} (h : StairLim c) (hs : c.ctx.state ≠ .terminated) : Lim 10 c := by
  rcases h with h | h
  · exact h
  · exact absurd h.2 hs

theorem StairLim.data {c c' : Comp F Stair.Data} (h : StairLim c) (hd : c'.mv.data = c.mv.data)
    (hs : c.ctx.state = .terminated → c'.ctx.state = .terminated) : StairLim c' := by
  rcases h with h | h
  · left; show _ ≤ _; rw [hd]; exact h
  · right; refine ⟨?_, hs h.2⟩; show _ ≤ _; rw [hd]; exact h.1

theorem stairLim_call : CallInvX (fun fn => fn ∈ [Fn.doStep, .newDiscreteStates]) (fun f => f ≠ .event)
    (Stair.model : Model F Stair.Data) StairLim StairLim where
  lift {c f mv' s} h hf e := by
    rcases h with h | h
    · exact .inl ((Stair.lim_quiet (by omega)).lift h hf e)
    · exact .inr ⟨(Stair.lim_quiet (by omega)).lift h.1 hf e, h.2⟩
  log msg h := h.data (by unfold Comp.logError logError; split <;> rfl) fun h => by simpa [Comp.logError] using h
  dirty b h := h.data rfl fun h => h
  calls := by
    intro fn hX f hf
    cases fn <;> simp [FMI2.Fn.calls] at hX hf ⊢ <;> first | (subst hf; simp) | (rcases hf with rfl | rfl <;> simp)
  step h := absurd (by simp) h
  nx _ _ h := h
  nz _ _ h := h
  prez _ _ _ h := h
  term h := h.data rfl fun _ => rfl
  setup _ _ _ _ h _ := h
  enterInit _ _ h hs := .inl (h.running (by simp [hs]))
  reset _ c _ := by
    unfold Verif.reset
    refine Outcome.all_ret.2 (.inl ?_)
    show _ ≤ _
    simp [Comp.setState, Comp.setTime, Comp.setDirty, Stair.model, Stair.setStartValues]
  restore _ _ _ _ h := h
  enterEvent _ _ h hs := .inl (h.running (by rcases hs with hs | hs <;> simp [hs]))
  enterCT _ _ h hs := .inl (h.running (by simp [hs]))
  setTime _ _ _ h _ := h
  exitInit _ _ h hs := .inl (h.running (by simp [hs]))

theorem doStepLoop_lim {next : F} (fuel : Nat) : ∀ {c : Comp F Stair.Data}, Stair.Bounded c.mv → Lim 10 c →
    (doStepLoop (Stair.model : Model F Stair.Data) next fuel c .OK).All fun x => StairLim x.1 := by
  induction fuel with
  | zero => intro c _ _; exact Outcome.all_hang.2 trivial
  | succ fuel ih =>
    intro c hb h
    unfold doStepLoop
    simp only
    split
    · exact Outcome.all_ret.2 (.inl h)
    · refine Outcome.All.bind (Stair.fixedStep_lim hb h) ?_
      rintro ⟨c1, s1, ev⟩ ⟨hs, hb1, h1⟩
      simp only at hs h1 hb1
      subst hs
      have rest : ∀ {c : Comp F Stair.Data}, Stair.Bounded c.mv → Lim 10 c → Outcome.All (if c.mv.terminateSimulation then
          .ret (c, .Discard, ()) else doStepLoop Stair.model next fuel c .OK) fun x => StairLim x.1 := by
        intro c hb h
        split
        · exact Outcome.all_ret.2 (.inl h)
        · exact ih hb h
      cases ev with
      | none => exact Outcome.all_ub.2 trivial
      | some ev =>
        obtain ⟨a, b⟩ := ev
        change Outcome.All (if (a || b) = true then call .OK (c1.lift (Stair.eventUpdate c1.ctx c1.mv)) (fun _ => ()) _ else _) _
        split
        · exact Stair.callEvent_all hb1 h1 (fun c' hb h _ => rest hb h) fun c' _ h => .inr ⟨h, rfl⟩
        · exact rest hb1 h1

theorem stair_step {fuel : Nat} {w w' : World F Stair.Data} {op s o} (hb : Stair.Bounded w.inst.mv) (h : WInv StairLim w)
    (e : step (Stair.model : Model F Stair.Data) fuel w op = .ret (w', s, o)) : WInv StairLim w' := by
  refine h.next e ?_
  have key : (step (Stair.model : Model F Stair.Data) fuel w op).All fun x => StairLim x.1.inst := by
    by_cases hX : op.fn ∈ [Fn.doStep, .newDiscreteStates]
    · have term : ∀ (msg : String), StairLim ((w.inst.logError msg).setState .terminated) := fun msg =>
        stairLim_call.term (stairLim_call.log msg h.inst)
      cases op <;> simp [Op.fn] at hX <;> simp only [step, World.run]
      case doStep ccp st =>
        refine Outcome.All.bind (R := fun x => StairLim x.1) ?_ fun x hx => Outcome.all_ret.2 hx
        unfold doStep begin beginFunction
        split
        · next ha =>
          have hs := (allowed_doStep _).1 ha
          have hl := h.inst.running (by simp [hs])
          simp only []
          split
          · exact Outcome.all_ret.2 (term _)
          · split
            · exact Outcome.all_ret.2 (term _)
            · simp -failIfUnchanged only []
              split
              · exact Outcome.all_ret.2 (term _)
              · exact doStepLoop_lim fuel hb hl
        · exact Outcome.all_ret.2 (term _)
      case newDiscreteStates info =>
        refine Outcome.All.bind (R := fun x => StairLim x.1) ?_ fun x hx => Outcome.all_ret.2 hx
        unfold newDiscreteStates begin beginFunction
        split
        · next ha =>
          have hs := (allowed_event _).1 ha
          have hl := h.inst.running (by simp [hs])
          refine Stair.callEvent_all hb hl (fun c' _ h _ => ?_) fun c' _ h => .inr ⟨h, rfl⟩
          cases info with
          | none => exact Outcome.all_ub.2 trivial
          | some _ => exact Outcome.all_ret.2 (.inl h)
        · exact Outcome.all_ret.2 (term _)
    · exact step_keepX Stair.eff.okOrError stairLim_call (fun _ i s e => h.slots i s e) h.inst
        (fun _ {c} _ _ h => h) hX
  exact key _ e

theorem Reachable.stair {t : IType} {w : World F Stair.Data} (h : Reachable (Stair.model : Model F Stair.Data) t w) :
    WInv StairLim w := by
  obtain ⟨name, guid, resource, functions, loggingOn, mem, c, l, w₀, fuel, ops, outs, h1, h2, h3⟩ := h
  have hb : WInv (fun c => Stair.Bounded c.mv) w₀ ∧ WInv StairLim w₀ := by
    unfold instantiate at h1
    split at h1
    · simp at h1
    · simp at h1
    · have e := createModelInstance_mv h1
      refine ⟨WInv.initial h2 ?_, WInv.initial h2 (.inl ?_)⟩
      · rw [e]; intro h; simp [Stair.model, Stair.setStartValues] at h
      · show _ ≤ _
        rw [e]; simp [Stair.model, Stair.setStartValues]
  clear h1 h2
  induction ops generalizing w₀ outs with
  | nil => simp only [FMI2.run] at h3; cases h3; exact hb.2
  | cons op ops ih =>
    unfold FMI2.run at h3
    obtain ⟨⟨w1, s, o⟩, e1, e⟩ := Outcome.bind_eq_ret.1 h3
    obtain ⟨⟨w2, l2⟩, e2, e⟩ := Outcome.bind_eq_ret.1 e
    cases e
    exact ih w1 _ e2 ⟨step_inv Stair.eff.okOrError (.ofMV Stair.bounded) hb.1 _ _ e1, stair_step hb.1.inst hb.2 e1⟩

end FMI2

namespace FMI3
open Stair (Lim)

theorem stairLim_call {n : Int} (hn : 10 ≤ n) : CallInvX (fun fn => fn ∈ [Fn.doStep, .updateDiscreteStates]) (fun f => f ≠ .event)
    (Stair.model : Model F Stair.Data) (Lim n) (Lim n) where
  toQuiet := Stair.lim_quiet (by omega)
  calls := by
    intro fn hX f hf
    cases fn <;> simp [FMI3.Fn.calls] at hX hf ⊢ <;> first | (subst hf; simp) | (rcases hf with rfl | rfl <;> simp)
  step h := absurd (by simp) h
  nx _ _ h := h
  nz _ _ h := h
  prez _ _ _ h := h
  term h := h
  enterInit _ _ _ _ h _ := h
  enterConfig _ _ h _ := h
  exitConfig _ _ h _ := h
  reset _ c _ := by
    unfold Verif.reset
    refine Outcome.all_ret.2 ?_
    show _ ≤ _
    simp [Comp.setState, Comp.setTime, Comp.setDirty, Stair.model, Stair.setStartValues]
    omega
  restore _ _ _ _ h := h
  enterEvent _ _ h _ := h
  enterCT _ _ h _ := h
  setTime _ _ _ h _ := h
  enterStep _ _ h _ := h
  exitInit _ _ h _ := h

theorem Lim.mono {n n' : Int} (hn : n ≤ n') {c : Comp F Stair.Data} (h : Lim n c) : Lim n' c := Int.le_trans h hn

theorem doStepEnd_lim {n : Int} {next : F} {out : StepOut F} {c : Comp F Stair.Data} {st a b} (h : Lim n c) :
    (doStepEnd next out c st a b).All fun x => Lim n x.1 := by
  unfold doStepEnd
  split
  · exact Outcome.all_ub.2 trivial
  · exact Outcome.all_ret.2 h

theorem doStepLoop_lim {n : Int} (hn : 10 ≤ n) {next : F} {out : StepOut F} (fuel : Nat) : ∀ {c : Comp F Stair.Data} {ehn},
    Stair.Bounded c.mv → Lim n c → (ehn = true → Lim 9 c) →
    (doStepLoop (Stair.model : Model F Stair.Data) next out fuel c .OK ehn).All fun x => Lim (n + 1) x.1 := by
  induction fuel with
  | zero => intro c ehn _ _ _; exact Outcome.all_hang.2 trivial
  | succ fuel ih =>
    intro c ehn hb h he
    unfold doStepLoop
    simp only
    split
    · exact doStepEnd_lim (Lim.mono (by omega) h)
    · refine Outcome.All.bind (R := fun x => Stair.Bounded x.1.mv ∧ Lim n x.1) ?_ ?_
      · unfold pendingEvent
        simp only [show (Stair.model : Model F Stair.Data).eventUpdate = some Stair.eventUpdate from rfl]
        split
        · next hE =>
          have h9 : c.mv.data.counter ≤ 9 := he hE
          refine Outcome.All.bind (R := fun x => Stair.Bounded x.1.mv ∧ Lim n x.1) ?_ fun x hx => Outcome.all_ret.2 hx
          refine Outcome.All.bind Outcome.all_self ?_
          rintro ⟨mv', s, u⟩ e
          refine Outcome.all_ret.2 ⟨Stair.bounded.step hb (.event rfl e), ?_⟩
          have := (Stair.eventUpdate_lim e).1
          show mv'.data.counter ≤ n
          omega
        · exact Outcome.all_ret.2 ⟨hb, h⟩
      rintro ⟨c0, ehn0⟩ ⟨hb0, h0⟩
      refine Outcome.All.bind (Stair.fixedStep_lim hb0 h0) ?_
      rintro ⟨c1, s1, ev⟩ ⟨hs, hb1, h1⟩
      simp only at hs h1 hb1
      subst hs
      generalize hr : (next <. c.ctx.time +. Stair.model.h && !isClose (c.ctx.time +. Stair.model.h) next) = reached
      have rest : ∀ {c : Comp F Stair.Data} {ehn}, Stair.Bounded c.mv → Lim (n + 1) c → Outcome.All (if c.mv.terminateSimulation then
          doStepEnd next out c .OK ehn reached else doStepLoop Stair.model next out fuel c .OK ehn) fun x => Lim (n + 1) x.1 := by
        intro c ehn hb h
        split
        · exact doStepEnd_lim h
        · next ht =>
          have h9 : Lim 9 c := by
            show _ ≤ _
            by_cases h10 : 10 ≤ c.mv.data.counter
            · exact absurd (hb h10) ht
            · omega
          exact ih hb (Lim.mono (by omega) h9) fun _ => h9
      have early : ∀ {c : Comp F Stair.Data} {ehn}, Stair.Bounded c.mv → Lim (n + 1) c → Outcome.All (if c.earlyReturnAllowed then
          doStepEnd next out c .OK ehn reached else if c.mv.terminateSimulation then
          doStepEnd next out c .OK ehn reached else doStepLoop Stair.model next out fuel c .OK ehn) fun x => Lim (n + 1) x.1 := by
        intro c ehn hb h
        split
        · exact doStepEnd_lim h
        · exact rest hb h
      cases ev with
      | none => exact Outcome.all_ub.2 trivial
      | some ev =>
        obtain ⟨a, b⟩ := ev
        change Outcome.All (if (a || b) = true then (if c1.eventModeUsed then _ else
          call .OK (c1.lift (Stair.eventUpdate c1.ctx c1.mv)) _ _) else _) _
        split
        · split
          · exact early hb1 (Lim.mono (by omega) h1)
          · exact Stair.callEvent_all hb1 h1 (fun c' hb h h' => early hb h') fun c' _ h => h
        · exact rest hb1 (Lim.mono (by omega) h1)

theorem stair_step {n : Int} (hn : 10 ≤ n) {fuel : Nat} {w w' : World F Stair.Data} {op s o} (hb : Stair.Bounded w.inst.mv)
    (h : WInv (Lim n) w) (e : step (Stair.model : Model F Stair.Data) fuel w op = .ret (w', s, o)) : WInv (Lim (n + 1)) w' := by
  have h' : WInv (Lim (n + 1)) w := ⟨Lim.mono (by omega) h.inst, fun i s e => Lim.mono (by omega) (h.slots i s e),
    fun i b s e e' => Lim.mono (by omega) (h.bufs i b s e e')⟩
  refine h'.next e ?_
  have key : (step (Stair.model : Model F Stair.Data) fuel w op).All fun x => Lim (n + 1) x.1.inst := by
    by_cases hX : op.fn ∈ [Fn.doStep, .updateDiscreteStates]
    · have term : ∀ (msg : String), Lim (n + 1) ((w.inst.logError msg).setState .terminated) := fun msg =>
        (stairLim_call (by omega)).term ((stairLim_call (by omega)).log msg h'.inst)
      cases op <;> simp [Op.fn] at hX <;> simp only [step, World.run]
      case doStep ccp st out =>
        refine Outcome.All.bind (R := fun x => Lim (n + 1) x.1) ?_ fun x hx => Outcome.all_ret.2 hx
        unfold doStep begin beginFunction
        split
        · simp only []
          split
          · exact Outcome.all_ret.2 (term _)
          · split
            · exact Outcome.all_ret.2 (term _)
            · simp -failIfUnchanged only []
              split
              · exact Outcome.all_ret.2 (term _)
              · split
                · exact Outcome.all_ub.2 trivial
                · exact doStepLoop_lim hn fuel hb h.inst nofun
        · exact Outcome.all_ret.2 (term _)
      case updateDiscreteStates info =>
        refine Outcome.All.bind (R := fun x => Lim (n + 1) x.1) ?_ fun x hx => Outcome.all_ret.2 hx
        unfold updateDiscreteStates begin beginFunction
        split
        · exact Stair.callEvent_all hb h.inst (fun c' _ _ h => Outcome.all_ret.2 h) fun c' _ h => h
        · exact Outcome.all_ret.2 (term _)
    · exact step_keepX Stair.eff.okOrError (stairLim_call (by omega)) (fun _ i s e => h'.slots i s e) h'.inst
        (fun _ {c} _ _ h => h) hX
  exact key _ e

/-- After `k` calls the counter of Stair is at most `10 + k`. -/
theorem stair_run {fuel : Nat} : ∀ (ops : List (Op F)) {k : Nat} {w w' : World F Stair.Data} {l},
    WInv (fun c => Stair.Bounded c.mv) w → WInv (Lim (10 + k)) w →
    run (Stair.model : Model F Stair.Data) fuel w ops = .ret (w', l) →
    WInv (fun c => Stair.Bounded c.mv) w' ∧ WInv (Lim (10 + (k + ops.length : Nat))) w' := by
  intro ops
  induction ops with
  | nil => intro k w w' l hb h e; simp only [run] at e; cases e; exact ⟨hb, h⟩
  | cons op ops ih =>
    intro k w w' l hb h e
    unfold run at e
    obtain ⟨⟨w1, s, o⟩, e1, e⟩ := Outcome.bind_eq_ret.1 e
    obtain ⟨⟨w2, l2⟩, e2, e⟩ := Outcome.bind_eq_ret.1 e
    cases e
    have h1 := stair_step (by omega) hb.inst h e1
    have := ih (k := k + 1) (step_inv Stair.eff.okOrError (.ofMV Stair.bounded) hb _ _ e1) (by
      rw [show (10 : Int) + (k + 1 : Nat) = 10 + k + 1 by omega]; exact h1) e2
    rw [show k + (op :: ops).length = k + 1 + ops.length by simp; omega]
    exact this

theorem New.stair {t : IType} {c : Comp F Stair.Data} (h : New (Stair.model : Model F Stair.Data) t c) :
    Stair.Bounded c.mv ∧ Lim 10 c := by
  obtain ⟨_, _, _, _, _, _, _, c₀, _, _, _, _, _, _, e, rfl⟩ := h.created
  have e := createModelInstance_mv e
  refine ⟨?_, ?_⟩
  · simp only; rw [e]; intro h; simp [Stair.model, Stair.setStartValues] at h
  · show _ ≤ _
    simp only; rw [e]; simp [Stair.model, Stair.setStartValues]

end FMI3
end Verif
