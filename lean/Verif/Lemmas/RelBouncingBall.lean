import Verif.Lemmas.RelBase
import Verif.Models.BouncingBall

/-! Observational equivalence of BouncingBall instances. -/

set_option linter.unusedSectionVars false
set_option linter.unusedSimpArgs false
set_option linter.unusedVariables false

namespace Verif

namespace BouncingBall
variable {F : Type} [Arith F]

/-- All values. `nominalsChanged` and `valuesChanged` are set by every event update. -/
def key (mv : MV F (Data F)) := (mv.flags, mv.data.h, mv.data.v, mv.data.g, mv.data.e)

theorem get_getFloat64 {mv mv' : MV F (Data F)} {ctx ctx' : Ctx F} (vr p n i) (hc : CtxRel ctx ctx')
    (h : Same key mv mv') : MRel (Same key) (getFloat64 ctx mv vr p n i) (getFloat64 ctx' mv' vr p n i) := by
  obtain ⟨a1, a2, a3, a4, a5, a6, a7, a8, ⟨d_h, d_v, d_g, d_e⟩, a9⟩ := mv
  obtain ⟨b1, b2, b3, b4, b5, b6, b7, b8, ⟨e_h, e_v, e_g, e_e⟩, b9⟩ := mv'
  obtain ⟨la, lb, l, rfl⟩ := hc
  simp only [Same, key, MV.flags, MV.moreFlags, Prod.mk.injEq] at h
  obtain ⟨⟨rfl, rfl, rfl, rfl, rfl⟩, rfl, rfl, rfl, rfl⟩ := h
  simp only [getFloat64]
  mrel

theorem set_setFloat64 {mv mv' : MV F (Data F)} {ctx ctx' : Ctx F} (vr p n i) (hc : CtxRel ctx ctx')
    (h : Same key mv mv') : MRel (Same key) (setFloat64 ctx mv vr p n i) (setFloat64 ctx' mv' vr p n i) := by
  obtain ⟨a1, a2, a3, a4, a5, a6, a7, a8, ⟨d_h, d_v, d_g, d_e⟩, a9⟩ := mv
  obtain ⟨b1, b2, b3, b4, b5, b6, b7, b8, ⟨e_h, e_v, e_g, e_e⟩, b9⟩ := mv'
  obtain ⟨la, lb, l, rfl⟩ := hc
  simp only [Same, key, MV.flags, MV.moreFlags, Prod.mk.injEq] at h
  obtain ⟨⟨rfl, rfl, rfl, rfl, rfl⟩, rfl, rfl, rfl, rfl⟩ := h
  simp only [setFloat64]
  mrel

theorem tf : TraceFree (F := F) (Same (D := (Data F)) key) := fun _ _ _ _ h => h

theorem respects : Respects (F := F) (model) (Same key) where
  trace := tf
  dirty := fun _ h => h
  term := fun h => by
    simp only [Same, key, MV.flags, MV.moreFlags, Prod.mk.injEq] at h; simp [h]
  netd := fun h => by
    simp only [Same, key, MV.flags, MV.moreFlags, Prod.mk.injEq] at h; simp [h]
  net := fun h => by
    simp only [Same, key, MV.flags, MV.moreFlags, Prod.mk.injEq] at h; simp [h]
  numX := fun _ => rfl
  numZ := fun _ => rfl
  info := fun _ h => by cases h
  start := by
    rintro mv mv' ctx ctx' ⟨la, lb, l, rfl⟩ h
    simp only [Same, key, MV.flags, MV.moreFlags, Prod.mk.injEq] at h
    simp only [Same, key, MV.flags, MV.moreFlags, Prod.mk.injEq]
    simp [model, setStartValues, h]
  refresh := by
    rintro mv mv' ctx ctx' ⟨la, lb, l, rfl⟩ h
    simp only [refreshM, model]
    split <;> split <;> exact ⟨h, rfl⟩
  get := by
    intro mv mv' ctx ctx' t vr p n i hc h
    cases t
    case float64 => exact get_getFloat64 vr p n i hc h
    all_goals exact .fail tf h
  set := by
    intro mv mv' ctx ctx' t vr p n i hc h
    cases t
    case float64 => exact set_setFloat64 vr p n i hc h
    all_goals exact .fail tf h
  event := by
    intro mv mv' ctx ctx' eu he hc h
    cases he
    obtain ⟨a1, a2, a3, a4, a5, a6, a7, a8, d, a9⟩ := mv
    obtain ⟨b1, b2, b3, b4, b5, b6, b7, b8, e, b9⟩ := mv'
    simp only [Same, key, MV.flags, Prod.mk.injEq] at h
    obtain ⟨d1, d2, d3, d4⟩ := d
    obtain ⟨e1, e2, e3, e4⟩ := e
    obtain ⟨⟨rfl, rfl, rfl, rfl, rfl⟩, rfl, rfl, rfl, rfl⟩ := h
    simp only [eventUpdate]
    split <;> (try split) <;> exact ⟨rfl, rfl, fun _ => rfl⟩
  getStates := by
    rintro ⟨a1, a2, a3, a4, a5, a6, a7, a8, ⟨d_h, d_v, d_g, d_e⟩, a9⟩
      ⟨b1, b2, b3, b4, b5, b6, b7, b8, ⟨e_h, e_v, e_g, e_e⟩, b9⟩ ctx ctx' p n ⟨la, lb, l, rfl⟩ h
    simp only [Same, key, MV.flags, MV.moreFlags, Prod.mk.injEq] at h
    obtain ⟨⟨rfl, rfl, rfl, rfl, rfl⟩, rfl, rfl, rfl, rfl⟩ := h
    refine MRel.putVector tf ?_ ?_ ?_ <;> rfl
  nominals := by
    rintro ⟨a1, a2, a3, a4, a5, a6, a7, a8, ⟨d_h, d_v, d_g, d_e⟩, a9⟩
      ⟨b1, b2, b3, b4, b5, b6, b7, b8, ⟨e_h, e_v, e_g, e_e⟩, b9⟩ ctx ctx' p n ⟨la, lb, l, rfl⟩ h
    simp only [Same, key, MV.flags, MV.moreFlags, Prod.mk.injEq] at h
    obtain ⟨⟨rfl, rfl, rfl, rfl, rfl⟩, rfl, rfl, rfl, rfl⟩ := h
    refine MRel.putVector tf ?_ ?_ ?_ <;> rfl
  setStates := by
    rintro ⟨a1, a2, a3, a4, a5, a6, a7, a8, ⟨d_h, d_v, d_g, d_e⟩, a9⟩
      ⟨b1, b2, b3, b4, b5, b6, b7, b8, ⟨e_h, e_v, e_g, e_e⟩, b9⟩ ctx ctx' p n ⟨la, lb, l, rfl⟩ h
    simp only [Same, key, MV.flags, MV.moreFlags, Prod.mk.injEq] at h
    obtain ⟨⟨rfl, rfl, rfl, rfl, rfl⟩, rfl, rfl, rfl, rfl⟩ := h
    exact MRel.takeVector tf (by exact rfl) (by exact fun _ => rfl)
  deriv := by
    rintro ⟨a1, a2, a3, a4, a5, a6, a7, a8, ⟨d_h, d_v, d_g, d_e⟩, a9⟩
      ⟨b1, b2, b3, b4, b5, b6, b7, b8, ⟨e_h, e_v, e_g, e_e⟩, b9⟩ ctx ctx' p n ⟨la, lb, l, rfl⟩ h
    simp only [Same, key, MV.flags, MV.moreFlags, Prod.mk.injEq] at h
    obtain ⟨⟨rfl, rfl, rfl, rfl, rfl⟩, rfl, rfl, rfl, rfl⟩ := h
    refine MRel.putVector tf ?_ ?_ ?_ <;> rfl
  indicators := by
    rintro ⟨a1, a2, a3, a4, a5, a6, a7, a8, ⟨d_h, d_v, d_g, d_e⟩, a9⟩
      ⟨b1, b2, b3, b4, b5, b6, b7, b8, ⟨e_h, e_v, e_g, e_e⟩, b9⟩ ctx ctx' p n ⟨la, lb, l, rfl⟩ h
    simp only [Same, key, MV.flags, MV.moreFlags, Prod.mk.injEq] at h
    obtain ⟨⟨rfl, rfl, rfl, rfl, rfl⟩, rfl, rfl, rfl, rfl⟩ := h
    refine MRel.putVector tf ?_ ?_ ?_ <;> rfl
  getStatesV := by
    rintro ⟨a1, a2, a3, a4, a5, a6, a7, a8, ⟨d_h, d_v, d_g, d_e⟩, a9⟩
      ⟨b1, b2, b3, b4, b5, b6, b7, b8, ⟨e_h, e_v, e_g, e_e⟩, b9⟩ ctx ctx' p p' n ⟨la, lb, l, rfl⟩ h hl
    simp only [Same, key, MV.flags, MV.moreFlags, Prod.mk.injEq] at h
    obtain ⟨⟨rfl, rfl, rfl, rfl, rfl⟩, rfl, rfl, rfl, rfl⟩ := h
    refine VecRel.putVector tf ?_ ?_ hl ?_ <;> rfl
  derivV := by
    rintro ⟨a1, a2, a3, a4, a5, a6, a7, a8, ⟨d_h, d_v, d_g, d_e⟩, a9⟩
      ⟨b1, b2, b3, b4, b5, b6, b7, b8, ⟨e_h, e_v, e_g, e_e⟩, b9⟩ ctx ctx' p p' n ⟨la, lb, l, rfl⟩ h hl
    simp only [Same, key, MV.flags, MV.moreFlags, Prod.mk.injEq] at h
    obtain ⟨⟨rfl, rfl, rfl, rfl, rfl⟩, rfl, rfl, rfl, rfl⟩ := h
    refine VecRel.putVector tf ?_ ?_ hl ?_ <;> rfl
  indicatorsV := by
    rintro ⟨a1, a2, a3, a4, a5, a6, a7, a8, ⟨d_h, d_v, d_g, d_e⟩, a9⟩
      ⟨b1, b2, b3, b4, b5, b6, b7, b8, ⟨e_h, e_v, e_g, e_e⟩, b9⟩ ctx ctx' p p' n ⟨la, lb, l, rfl⟩ h hl
    simp only [Same, key, MV.flags, MV.moreFlags, Prod.mk.injEq] at h
    obtain ⟨⟨rfl, rfl, rfl, rfl, rfl⟩, rfl, rfl, rfl, rfl⟩ := h
    refine VecRel.putVector tf ?_ ?_ hl ?_ <;> rfl
  setStatesV := by
    rintro ⟨a1, a2, a3, a4, a5, a6, a7, a8, ⟨d_h, d_v, d_g, d_e⟩, a9⟩
      ⟨b1, b2, b3, b4, b5, b6, b7, b8, ⟨e_h, e_v, e_g, e_e⟩, b9⟩ ctx ctx' p p' n ⟨la, lb, l, rfl⟩ h hl
    simp only [Same, key, MV.flags, MV.moreFlags, Prod.mk.injEq] at h
    obtain ⟨⟨rfl, rfl, rfl, rfl, rfl⟩, rfl, rfl, rfl, rfl⟩ := h
    exact SetRel.takeVector tf (by exact rfl) hl (by exact fun _ => rfl)
  indicatorsOK := by
    rintro - ctx mv l hl
    obtain ⟨a, rfl⟩ := List.length_eq_one_iff.1 hl
    exact ⟨_, _, rfl⟩
  partialDeriv := fun _ _ _ _ h => .fail tf h
  outDeriv := by
    intro mv mv' ctx ctx' f vr o v hf
    cases hf
    revert mv mv' ctx ctx'
    rintro ⟨a1, a2, a3, a4, a5, a6, a7, a8, ⟨d_h, d_v, d_g, d_e⟩, a9⟩
      ⟨b1, b2, b3, b4, b5, b6, b7, b8, ⟨e_h, e_v, e_g, e_e⟩, b9⟩ ctx ctx' ⟨la, lb, l, rfl⟩ h
    simp only [Same, key, MV.flags, MV.moreFlags, Prod.mk.injEq] at h
    obtain ⟨⟨rfl, rfl, rfl, rfl, rfl⟩, rfl, rfl, rfl, rfl⟩ := h
    simp only [getOutputDerivative]
    mrel
  activate := fun _ _ h => .ret h
  getClock := fun _ _ _ h => .ret h
  getInterval := fun _ _ _ _ h => .ret h
  partition := fun _ _ _ h => .ret h
end BouncingBall

end Verif
