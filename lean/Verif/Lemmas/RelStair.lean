import Verif.Lemmas.RelBase
import Verif.Models.Stair

/-! Observational equivalence of Stair instances. -/

set_option linter.unusedSectionVars false
set_option linter.unusedSimpArgs false
set_option linter.unusedVariables false

namespace Verif

namespace Stair
variable {F : Type} [Arith F]

/-- All values. `nominalsChanged` and `valuesChanged` are set by every event update. -/
def key (mv : MV F Data) := (mv.flags, mv.data.counter)

theorem get_getFloat64 {mv mv' : MV F Data} {ctx ctx' : Ctx F} (vr p n i) (hc : CtxRel ctx ctx')
    (h : Same key mv mv') : MRel (Same key) (getFloat64 ctx mv vr p n i) (getFloat64 ctx' mv' vr p n i) := by
  obtain ⟨a1, a2, a3, a4, a5, a6, a7, a8, ⟨d_counter⟩, a9⟩ := mv
  obtain ⟨b1, b2, b3, b4, b5, b6, b7, b8, ⟨e_counter⟩, b9⟩ := mv'
  obtain ⟨la, lb, l, rfl⟩ := hc
  simp only [Same, key, MV.flags, MV.moreFlags, Prod.mk.injEq] at h
  obtain ⟨⟨rfl, rfl, rfl, rfl, rfl⟩, rfl⟩ := h
  simp only [getFloat64]
  mrel

theorem get_getInt32 {mv mv' : MV F Data} {ctx ctx' : Ctx F} (vr p n i) (hc : CtxRel ctx ctx')
    (h : Same key mv mv') : MRel (Same key) (getInt32 ctx mv vr p n i) (getInt32 ctx' mv' vr p n i) := by
  obtain ⟨a1, a2, a3, a4, a5, a6, a7, a8, ⟨d_counter⟩, a9⟩ := mv
  obtain ⟨b1, b2, b3, b4, b5, b6, b7, b8, ⟨e_counter⟩, b9⟩ := mv'
  obtain ⟨la, lb, l, rfl⟩ := hc
  simp only [Same, key, MV.flags, MV.moreFlags, Prod.mk.injEq] at h
  obtain ⟨⟨rfl, rfl, rfl, rfl, rfl⟩, rfl⟩ := h
  simp only [getInt32]
  mrel

theorem set_setInt32 {mv mv' : MV F Data} {ctx ctx' : Ctx F} (vr p n i) (hc : CtxRel ctx ctx')
    (h : Same key mv mv') : MRel (Same key) (setInt32 ctx mv vr p n i) (setInt32 ctx' mv' vr p n i) := by
  obtain ⟨a1, a2, a3, a4, a5, a6, a7, a8, ⟨d_counter⟩, a9⟩ := mv
  obtain ⟨b1, b2, b3, b4, b5, b6, b7, b8, ⟨e_counter⟩, b9⟩ := mv'
  obtain ⟨la, lb, l, rfl⟩ := hc
  simp only [Same, key, MV.flags, MV.moreFlags, Prod.mk.injEq] at h
  obtain ⟨⟨rfl, rfl, rfl, rfl, rfl⟩, rfl⟩ := h
  simp only [setInt32]
  mrel

theorem tf : TraceFree (F := F) (Same (D := Data) key) := fun _ _ _ _ h => h

theorem respects : Respects (F := F) (model) (Same key) where
  trace := tf
  dirty := fun _ h => h
  term := fun h => by
    simp only [Same, key, MV.flags, MV.moreFlags, Prod.mk.injEq] at h; simp [h]
  netd := fun h => by
    simp only [Same, key, MV.flags, MV.moreFlags, Prod.mk.injEq] at h; simp [h]
  net := fun h => by
    simp only [Same, key, MV.flags, MV.moreFlags, Prod.mk.injEq] at h; simp [h]
  numX := fun _ => rfl
  numZ := fun _ => rfl
  info := fun _ h => by cases h
  start := by
    rintro mv mv' ctx ctx' ⟨la, lb, l, rfl⟩ h
    simp only [Same, key, MV.flags, MV.moreFlags, Prod.mk.injEq] at h
    simp only [Same, key, MV.flags, MV.moreFlags, Prod.mk.injEq]
    simp [model, setStartValues, h]
  refresh := by
    rintro mv mv' ctx ctx' ⟨la, lb, l, rfl⟩ h
    simp only [refreshM, model]
    split <;> split <;> exact ⟨h, rfl⟩
  get := by
    intro mv mv' ctx ctx' t vr p n i hc h
    cases t
    case float64 => exact get_getFloat64 vr p n i hc h
    case int32 => exact get_getInt32 vr p n i hc h
    all_goals exact .fail tf h
  set := by
    intro mv mv' ctx ctx' t vr p n i hc h
    cases t
    case int32 => exact set_setInt32 vr p n i hc h
    all_goals exact .fail tf h
  event := by
    intro mv mv' ctx ctx' eu he hc h
    cases he
    obtain ⟨a1, a2, a3, a4, a5, a6, a7, a8, ⟨d⟩, a9⟩ := mv
    obtain ⟨b1, b2, b3, b4, b5, b6, b7, b8, ⟨e⟩, b9⟩ := mv'
    obtain ⟨la, lb, l, rfl⟩ := hc
    simp only [Same, key, MV.flags, Prod.mk.injEq] at h
    obtain ⟨⟨rfl, rfl, rfl, rfl, rfl⟩, rfl⟩ := h
    have ht : TraceFree (F := F) (Same key) := fun _ _ _ _ h => h
    simp only [eventUpdate]
    by_cases h1 : (a5 && isClose ctx.time a6) = true
    · simp only [h1, if_true]
      by_cases h2 : d ≥ 2 ^ 31 - 1
      · simp only [if_pos h2]; trivial
      · simp only [if_neg h2, Outcome.ret_bind]
        by_cases h3 : d + 1 > 10
        · simp only [if_pos h3]
          exact ⟨ht.log (by exact rfl) _, rfl, fun h => by exact absurd rfl h⟩
        · simp only [if_neg h3]
          exact ⟨rfl, rfl, fun _ => rfl⟩
    · simp only [h1, if_false, Outcome.ret_bind]
      by_cases h3 : d > 10
      · simp only [Bool.false_eq_true, if_false, Outcome.ret_bind, if_pos h3]
        exact ⟨ht.log (by exact rfl) _, rfl, fun h => by exact absurd rfl h⟩
      · simp only [Bool.false_eq_true, if_false, Outcome.ret_bind, if_neg h3]
        exact ⟨rfl, rfl, fun _ => rfl⟩
  getStates := fun _ _ _ h => .vecStub tf h
  nominals := fun _ _ _ h => .vecStub tf h
  setStates := fun _ _ _ h => .vecStub tf h
  deriv := fun _ _ _ h => .vecStub tf h
  indicators := fun _ _ _ h => .vecStub tf h
  getStatesV := fun _ _ _ _ h hl => .stub tf h hl
  derivV := fun _ _ _ _ h hl => .stub tf h hl
  indicatorsV := fun _ _ _ _ h hl => .stub tf h hl
  setStatesV := fun _ _ _ _ h _ => .stub tf h
  indicatorsOK := fun h => by cases h
  partialDeriv := fun _ _ _ _ h => .fail tf h
  outDeriv := fun _ _ _ h => by cases h
  activate := fun _ _ h => .ret h
  getClock := fun _ _ _ h => .ret h
  getInterval := fun _ _ _ _ h => .ret h
  partition := fun _ _ _ h => .ret h
end Stair

end Verif
