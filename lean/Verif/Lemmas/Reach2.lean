import Verif.Lemmas.Modes2

/-! # Reachable worlds of FMI 2.0 -/

set_option linter.unusedSectionVars false

namespace Verif

section
variable {F D : Type} [Arith F] {m : Model F D}

/-- What `createModelInstance` returns. -/
theorem createModelInstance_ctx {ver3 logger iu name token resource loggingOn mem typ c l}
    (h : createModelInstance m ver3 logger iu name token resource loggingOn mem typ = (some c, l)) :
    c.ctx.typ = typ ∧ c.ctx.state = .instantiated ∧ c.ctx.time = Arith.lit 0 := by
  unfold createModelInstance at h
  simp only at h
  repeat' split at h
  all_goals first | (simp at h; done) | skip
  obtain ⟨h, -⟩ := Prod.mk.inj h
  cases h
  exact ⟨rfl, rfl, rfl⟩
end

namespace FMI2
variable {F D : Type} [Arith F] [HasInf F] {m : Model F D} {P : Comp F D → Prop}

theorem instantiate_ctx {name t guid resource functions loggingOn mem} {c : Comp F D} {l}
    (h : instantiate m name t guid resource functions loggingOn mem = (some c, l)) :
    c.ctx.typ = t ∧ c.ctx.state = .instantiated ∧ c.ctx.time = Arith.lit 0 := by
  unfold instantiate at h
  split at h
  · simp at h
  · simp at h
  · exact createModelInstance_ctx h

theorem WInv.initial {w : World F D} {c : Comp F D} (hw : w.Initial c) (h : P c) : WInv P w := by
  refine ⟨hw.inst ▸ h, ?_, ?_⟩
  · intro i s e; simp [hw.slots] at e
  · intro i b s e e'; simp [hw.bufs i b e] at e'

/-- An invariant that new instances have holds in every reachable world. -/
theorem Reachable.inv (hm : OkOrError m) (hi : HistInv m P) {t : IType}
    (h0 : ∀ name guid resource functions loggingOn mem c l,
      instantiate m name t guid resource functions loggingOn mem = (some c, l) → P c)
    {w : World F D} (h : Reachable m t w) : WInv P w := by
  obtain ⟨name, guid, resource, functions, loggingOn, mem, c, l, w₀, fuel, ops, outs, h1, h2, h3⟩ := h
  exact run_inv hm hi ops (WInv.initial h2 (h0 _ _ _ _ _ _ _ _ h1)) _ h3

/-- Invariants that only concern the mode. -/
theorem HistInv.mode (m : Model F D) (t : IType) (Q : Mode → Prop)
    (hterm : Q .terminated) (hinst : Q .instantiated)
    (h1 : Q .instantiated → Q .initializationMode)
    (h2 : Q (if t = .modelExchange then .eventMode else .stepComplete))
    (h3 : Q .continuousTimeMode → Q .eventMode) (h4 : Q .eventMode → Q .continuousTimeMode) :
    HistInv m fun c => c.ctx.typ = t ∧ Q c.ctx.state where
  lift h _ _ := h
  log _ h := h
  dirty _ h := h
  adv h _ := h
  iu h _ := h
  ncp _ h := h
  nx h := h
  nz h := h
  x _ h := h
  dx _ h := h
  z _ h := h
  prez _ h := h
  flags _ _ h := h
  term h := ⟨h.1, hterm⟩
  setup _ _ h _ := h
  enterInit h e := ⟨h.1, h1 (e ▸ h.2)⟩
  exitInit h _ := ⟨h.1, by simpa [Comp.setState, h.1] using h2⟩
  reset h := by simpa [Verif.reset, Comp.setState, Comp.setTime, Comp.setDirty, h.1] using hinst
  restore h h' := ⟨h.1, h'.2⟩
  enterEvent h e := ⟨h.1, by
    rcases e with e | e
    · exact e ▸ h.2
    · exact h3 (e ▸ h.2)⟩
  enterCT h e := ⟨h.1, h4 (e ▸ h.2)⟩
  setTime _ h _ := h

/-- The modes a Model Exchange instance can be in. -/
theorem Reachable.mode_me (hm : OkOrError m) {w : World F D} (h : Reachable m .modelExchange w) :
    w.inst.ctx.typ = .modelExchange ∧ w.inst.ctx.state ∈
      [Mode.instantiated, .initializationMode, .eventMode, .continuousTimeMode, .terminated] := by
  refine (Reachable.inv hm (HistInv.mode m .modelExchange _ ?_ ?_ ?_ ?_ ?_ ?_) ?_ h).inst
  case refine_7 =>
    intro _ _ _ _ _ _ c l h
    obtain ⟨h1, h2, -⟩ := instantiate_ctx h
    exact ⟨h1, by simp [h2]⟩
  all_goals simp

/-- The modes any other instance can be in. -/
theorem Reachable.mode_cs (hm : OkOrError m) {t : IType} (ht : t ≠ .modelExchange) {w : World F D}
    (h : Reachable m t w) : w.inst.ctx.typ = t ∧ w.inst.ctx.state ∈
      [Mode.instantiated, .initializationMode, .stepComplete, .terminated] := by
  refine (Reachable.inv hm (HistInv.mode m t _ ?_ ?_ ?_ ?_ ?_ ?_) ?_ h).inst
  case refine_7 =>
    intro _ _ _ _ _ _ c l h
    obtain ⟨h1, h2, -⟩ := instantiate_ctx h
    exact ⟨h1, by simp [h2]⟩
  all_goals simp [ht]

end FMI2
end Verif
