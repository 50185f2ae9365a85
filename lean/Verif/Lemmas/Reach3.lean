import Verif.Lemmas.Modes3
import Verif.Lemmas.Reach2

/-! # Reachable worlds of FMI 3.0; invariants of the part that `model.c` may write -/

set_option linter.unusedSectionVars false

namespace Verif
namespace FMI3
variable {F D : Type} [Arith F] [HasInf F] {m : Model F D} {P : Comp F D → Prop}

theorem WInv.initial {w : World F D} {c : Comp F D} (hw : w.Initial c) (h : P c) : WInv P w := by
  refine ⟨hw.inst ▸ h, ?_, ?_⟩
  · intro i s e; simp [hw.slots] at e
  · intro i b s e e'; simp [hw.bufs i b e] at e'

/-- An invariant that new instances have holds in every reachable world. -/
theorem Reachable.inv (hm : OkOrError m) (hi : HistInv m P) {t : IType}
    (h0 : ∀ c, New m t c → P c) {w : World F D} (h : Reachable m t w) : WInv P w := by
  obtain ⟨c, w₀, fuel, ops, outs, h1, h2, h3⟩ := h
  exact run_inv hm hi ops (WInv.initial h2 (h0 _ h1)) _ h3

/-- A new instance is one of `createModelInstance` with some fields set. -/
theorem New.created {t : IType} {c : Comp F D} (h : New m t c) :
    ∃ logger iu name token resource loggingOn mem c₀ l a b cu lo un,
      createModelInstance m true logger iu name token resource loggingOn mem t = (some c₀, l) ∧
      c = { c₀ with
        earlyReturnAllowed := a, eventModeUsed := b
        ctx := { c₀.ctx with clockUpdate := cu, lockPreemption := lo, unlockPreemption := un } } := by
  cases h with
  | me h =>
    unfold instantiateModelExchange at h
    split at h
    · simp at h
    · exact ⟨_, _, _, _, _, _, _, _, _, c.earlyReturnAllowed, c.eventModeUsed, c.ctx.clockUpdate,
        c.ctx.lockPreemption, c.ctx.unlockPreemption, h, rfl⟩
  | @cs name token resource loggingOn em er logger iu mem _ l h =>
    unfold instantiateCoSimulation at h
    split at h
    · simp at h
    · generalize hc : createModelInstance m true logger iu name token resource loggingOn mem .coSimulation = r at h
      obtain ⟨r, l'⟩ := r
      cases r with
      | none => simp at h
      | some c₀ =>
        simp only [Option.map_some, Prod.mk.injEq, Option.some.injEq] at h
        obtain ⟨h, rfl⟩ := h
        refine ⟨_, _, _, _, _, _, _, c₀, _, er, em, c₀.ctx.clockUpdate, c₀.ctx.lockPreemption,
          c₀.ctx.unlockPreemption, hc, ?_⟩
        rw [← h, Comp.setState, ← (createModelInstance_ctx hc).2.1]
  | @se name token resource loggingOn logger cu lo un mem _ l h =>
    unfold instantiateScheduledExecution at h
    split at h
    · simp at h
    · generalize hc : createModelInstance m true logger false name token resource loggingOn mem .scheduledExecution = r at h
      obtain ⟨r, l'⟩ := r
      cases r with
      | none => simp at h
      | some c₀ =>
        simp only [Option.map_some, Prod.mk.injEq, Option.some.injEq] at h
        obtain ⟨h, rfl⟩ := h
        refine ⟨_, _, _, _, _, _, _, c₀, _, c₀.earlyReturnAllowed, c₀.eventModeUsed, cu, lo, un, hc, ?_⟩
        rw [← h, ← (createModelInstance_ctx hc).2.1]

theorem New.ctx {t : IType} {c : Comp F D} (h : New m t c) :
    c.ctx.typ = t ∧ c.ctx.state = .instantiated ∧ c.ctx.time = Arith.lit 0 := by
  obtain ⟨_, _, _, _, _, _, _, c₀, _, _, _, _, _, _, e, rfl⟩ := h.created
  have := createModelInstance_ctx e
  exact this

end FMI3

section
variable {F D : Type} [Arith F] [HasInf F] {m : Model F D}

/-- The writable part of a new instance. -/
theorem createModelInstance_mv {ver3 logger iu name token resource loggingOn mem typ c l}
    (h : createModelInstance m ver3 logger iu name token resource loggingOn mem typ = (some c, l)) :
    c.mv = { m.setStartValues c.ctx {
          newDiscreteStatesNeeded := false, terminateSimulation := false,
          nominalsChanged := false, valuesChanged := false, nextEventTimeDefined := false,
          nextEventTime := Arith.lit 0, clocksTicked := false, isDirtyValues := false,
          data := m.data0, trace := [] } with isDirtyValues := true } := by
  unfold createModelInstance at h
  simp only at h
  repeat' split at h
  all_goals first | (simp at h; done) | skip
  obtain ⟨h, -⟩ := Prod.mk.inj h
  cases h
  rfl

/-- `Q` is kept by everything an FMU does to the part it may write. -/
structure MVInv (m : Model F D) (Q : MV F D → Prop) : Prop where
  step : ∀ {f ctx mv mv' s}, Q mv → MStep m f ctx mv mv' s → Q mv'
  dirty : ∀ {mv} b, Q mv → Q { mv with isDirtyValues := b }
  trace : ∀ {mv} l, Q mv → Q { mv with trace := l }
  start : ∀ {ctx mv}, Q mv → Q (m.setStartValues ctx mv)

variable {Q : MV F D → Prop}

theorem MVInv.log (h : MVInv m Q) {ctx : Ctx F} {mv : MV F D} (msg : String) (hq : Q mv) :
    Q (logError ctx mv msg) := by
  unfold logError
  split
  · exact h.trace _ hq
  · exact hq

theorem MVInv.stepQuiet (h : MVInv m Q) : StepQuiet m fun c => Q c.mv where
  lift hq _ e := h.step hq e
  log msg hq := h.log msg hq
  dirty b hq := h.dirty b hq
  adv hq _ := hq
  iu hq _ := h.trace _ hq
  ncp _ hq := hq
  nx hq := hq
  nz hq := hq
  x _ hq := hq
  dx _ hq := hq
  z _ hq := hq
  prez _ hq := hq

theorem FMI2.HistInv.ofMV (h : MVInv m Q) : FMI2.HistInv m fun c => Q c.mv where
  toStepQuiet := h.stepQuiet
  flags _ _ hq := hq
  term hq := hq
  setup _ _ hq _ := hq
  enterInit hq _ := hq
  exitInit hq _ := hq
  reset hq := by
    simpa [Verif.reset, Comp.setState, Comp.setTime, Comp.setDirty] using h.dirty _ (h.start hq)
  restore _ hs := h.trace _ hs
  enterEvent hq _ := hq
  enterCT hq _ := hq
  setTime _ hq _ := hq

theorem FMI3.HistInv.ofMV (h : MVInv m Q) : FMI3.HistInv m fun c => Q c.mv where
  toStepQuiet := h.stepQuiet
  flags _ _ hq := hq
  term hq := hq
  enterInit _ _ hq _ := hq
  exitInit hq _ := hq
  enterConfig hq _ := hq
  exitConfig hq _ := hq
  reset hq := by
    simpa [Verif.reset, Comp.setState, Comp.setTime, Comp.setDirty] using h.dirty _ (h.start hq)
  restore _ hs := h.trace _ hs
  enterEvent hq _ := hq
  enterCT hq _ := hq
  enterStep hq _ := hq
  setTime _ hq _ := hq

/-- The zeroed writable part from which `createModelInstance` starts. -/
def MV.zero (m : Model F D) : MV F D where
  newDiscreteStatesNeeded := false
  terminateSimulation := false
  nominalsChanged := false
  valuesChanged := false
  nextEventTimeDefined := false
  nextEventTime := Arith.lit 0
  clocksTicked := false
  isDirtyValues := false
  data := m.data0
  trace := []

theorem FMI2.Reachable.mv (hm : OkOrError m) (h : MVInv m Q) (h0 : Q (MV.zero m)) {t : IType}
    {w : FMI2.World F D} (hr : FMI2.Reachable m t w) : FMI2.WInv (fun c => Q c.mv) w := by
  refine Reachable.inv hm (.ofMV h) ?_ hr
  intro _ _ _ functions _ _ c l hc
  unfold instantiate at hc
  split at hc
  · simp at hc
  · simp at hc
  · rw [createModelInstance_mv hc]
    exact h.dirty _ (h.start h0)

theorem FMI3.Reachable.mv (hm : OkOrError m) (h : MVInv m Q) (h0 : Q (MV.zero m)) {t : IType}
    {w : FMI3.World F D} (hr : FMI3.Reachable m t w) : FMI3.WInv (fun c => Q c.mv) w := by
  refine Reachable.inv hm (.ofMV h) ?_ hr
  intro c hc
  obtain ⟨_, _, _, _, _, _, _, c₀, _, _, _, _, _, _, e, rfl⟩ := hc.created
  simp only
  rw [createModelInstance_mv e]
  exact h.dirty _ (h.start h0)

end
end Verif
