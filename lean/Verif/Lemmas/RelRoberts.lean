import Verif.Lemmas.RelBase
import Verif.Models.Roberts

/-! Observational equivalence of Roberts instances. -/

set_option linter.unusedSectionVars false
set_option linter.unusedSimpArgs false
set_option linter.unusedVariables false

namespace Verif

namespace Roberts
variable {F : Type} [Arith F]

/-- Everything but the derivatives and the residual, which are recomputed before they are read. The dirty
flag belongs to the key, because recomputing the values may change `y3`. -/
def key (mv : MV F (Data F)) := (mv.flags, mv.moreFlags, mv.isDirtyValues, mv.data.dae, mv.data.y1, mv.data.y2, mv.data.y3, mv.data.g1, mv.data.g2)

theorem get_getFloat64 {mv mv' : MV F (Data F)} {ctx ctx' : Ctx F} (vr p n i) (hc : CtxRel ctx ctx')
    (h : Same key mv mv') : MRel (Same key) (getFloat64 ctx mv vr p n i) (getFloat64 ctx' mv' vr p n i) := by
  obtain ⟨a1, a2, a3, a4, a5, a6, a7, a8, ⟨d_dae, d_y1, d_der_y1, d_y2, d_der_y2, d_y3, d_r, d_g1, d_g2⟩, a9⟩ := mv
  obtain ⟨b1, b2, b3, b4, b5, b6, b7, b8, ⟨e_dae, e_y1, e_der_y1, e_y2, e_der_y2, e_y3, e_r, e_g1, e_g2⟩, b9⟩ := mv'
  obtain ⟨la, lb, l, rfl⟩ := hc
  simp only [Same, key, MV.flags, MV.moreFlags, Prod.mk.injEq] at h
  obtain ⟨⟨rfl, rfl, rfl, rfl, rfl⟩, ⟨rfl, rfl⟩, rfl, rfl, rfl, rfl, rfl, rfl, rfl⟩ := h
  simp only [getFloat64]
  cases d_dae <;> mrel

theorem get_getBoolean {mv mv' : MV F (Data F)} {ctx ctx' : Ctx F} (vr p n i) (hc : CtxRel ctx ctx')
    (h : Same key mv mv') : MRel (Same key) (getBoolean ctx mv vr p n i) (getBoolean ctx' mv' vr p n i) := by
  obtain ⟨a1, a2, a3, a4, a5, a6, a7, a8, ⟨d_dae, d_y1, d_der_y1, d_y2, d_der_y2, d_y3, d_r, d_g1, d_g2⟩, a9⟩ := mv
  obtain ⟨b1, b2, b3, b4, b5, b6, b7, b8, ⟨e_dae, e_y1, e_der_y1, e_y2, e_der_y2, e_y3, e_r, e_g1, e_g2⟩, b9⟩ := mv'
  obtain ⟨la, lb, l, rfl⟩ := hc
  simp only [Same, key, MV.flags, MV.moreFlags, Prod.mk.injEq] at h
  obtain ⟨⟨rfl, rfl, rfl, rfl, rfl⟩, ⟨rfl, rfl⟩, rfl, rfl, rfl, rfl, rfl, rfl, rfl⟩ := h
  simp only [getBoolean]
  cases d_dae <;> mrel

theorem set_setFloat64 {mv mv' : MV F (Data F)} {ctx ctx' : Ctx F} (vr p n i) (hc : CtxRel ctx ctx')
    (h : Same key mv mv') : MRel (Same key) (setFloat64 ctx mv vr p n i) (setFloat64 ctx' mv' vr p n i) := by
  obtain ⟨a1, a2, a3, a4, a5, a6, a7, a8, ⟨d_dae, d_y1, d_der_y1, d_y2, d_der_y2, d_y3, d_r, d_g1, d_g2⟩, a9⟩ := mv
  obtain ⟨b1, b2, b3, b4, b5, b6, b7, b8, ⟨e_dae, e_y1, e_der_y1, e_y2, e_der_y2, e_y3, e_r, e_g1, e_g2⟩, b9⟩ := mv'
  obtain ⟨la, lb, l, rfl⟩ := hc
  simp only [Same, key, MV.flags, MV.moreFlags, Prod.mk.injEq] at h
  obtain ⟨⟨rfl, rfl, rfl, rfl, rfl⟩, ⟨rfl, rfl⟩, rfl, rfl, rfl, rfl, rfl, rfl, rfl⟩ := h
  simp only [setFloat64]
  cases d_dae <;> mrel

theorem set_setBoolean {mv mv' : MV F (Data F)} {ctx ctx' : Ctx F} (vr p n i) (hc : CtxRel ctx ctx')
    (h : Same key mv mv') : MRel (Same key) (setBoolean ctx mv vr p n i) (setBoolean ctx' mv' vr p n i) := by
  obtain ⟨a1, a2, a3, a4, a5, a6, a7, a8, ⟨d_dae, d_y1, d_der_y1, d_y2, d_der_y2, d_y3, d_r, d_g1, d_g2⟩, a9⟩ := mv
  obtain ⟨b1, b2, b3, b4, b5, b6, b7, b8, ⟨e_dae, e_y1, e_der_y1, e_y2, e_der_y2, e_y3, e_r, e_g1, e_g2⟩, b9⟩ := mv'
  obtain ⟨la, lb, l, rfl⟩ := hc
  simp only [Same, key, MV.flags, MV.moreFlags, Prod.mk.injEq] at h
  obtain ⟨⟨rfl, rfl, rfl, rfl, rfl⟩, ⟨rfl, rfl⟩, rfl, rfl, rfl, rfl, rfl, rfl, rfl⟩ := h
  simp only [setBoolean]
  cases d_dae <;> mrel

theorem tf : TraceFree (F := F) (Same (D := (Data F)) key) := fun _ _ _ _ h => h

theorem respects : Respects (F := F) (model) (Same key) where
  trace := tf
  dirty := fun b h => by
    simp only [Same, key, Prod.mk.injEq] at h ⊢; simp_all [MV.flags, MV.moreFlags]
  term := fun h => by
    simp only [Same, key, MV.flags, MV.moreFlags, Prod.mk.injEq] at h; simp [h]
  netd := fun h => by
    simp only [Same, key, MV.flags, MV.moreFlags, Prod.mk.injEq] at h; simp [h]
  net := fun h => by
    simp only [Same, key, MV.flags, MV.moreFlags, Prod.mk.injEq] at h; simp [h]
  numX := fun _ => rfl
  numZ := fun _ => rfl
  info := fun h _ => by
    simp only [Same, key, MV.flags, MV.moreFlags, Prod.mk.injEq] at h; simp [h, MV.eventInfo]
  start := by
    rintro ⟨a1, a2, a3, a4, a5, a6, a7, a8, ⟨d_dae, d_y1, d_der_y1, d_y2, d_der_y2, d_y3, d_r, d_g1, d_g2⟩, a9⟩
      ⟨b1, b2, b3, b4, b5, b6, b7, b8, ⟨e_dae, e_y1, e_der_y1, e_y2, e_der_y2, e_y3, e_r, e_g1, e_g2⟩, b9⟩ ctx ctx' ⟨la, lb, l, rfl⟩ h
    simp only [Same, key, MV.flags, MV.moreFlags, Prod.mk.injEq] at h
    obtain ⟨⟨rfl, rfl, rfl, rfl, rfl⟩, ⟨rfl, rfl⟩, rfl, rfl, rfl, rfl, rfl, rfl, rfl⟩ := h
    rfl
  refresh := by
    rintro ⟨a1, a2, a3, a4, a5, a6, a7, a8, ⟨d_dae, d_y1, d_der_y1, d_y2, d_der_y2, d_y3, d_r, d_g1, d_g2⟩, a9⟩
      ⟨b1, b2, b3, b4, b5, b6, b7, b8, ⟨e_dae, e_y1, e_der_y1, e_y2, e_der_y2, e_y3, e_r, e_g1, e_g2⟩, b9⟩ ctx ctx' ⟨la, lb, l, rfl⟩ h
    simp only [Same, key, MV.flags, MV.moreFlags, Prod.mk.injEq] at h
    obtain ⟨⟨rfl, rfl, rfl, rfl, rfl⟩, ⟨rfl, rfl⟩, rfl, rfl, rfl, rfl, rfl, rfl, rfl⟩ := h
    simp only [refreshM, model]
    cases d_dae <;> (split <;> exact ⟨rfl, rfl⟩)
  get := by
    intro mv mv' ctx ctx' t vr p n i hc h
    cases t
    case float64 => exact get_getFloat64 vr p n i hc h
    case boolean => exact get_getBoolean vr p n i hc h
    all_goals exact .fail tf h
  set := by
    intro mv mv' ctx ctx' t vr p n i hc h
    cases t
    case float64 => exact set_setFloat64 vr p n i hc h
    case boolean => exact set_setBoolean vr p n i hc h
    all_goals exact .fail tf h
  event := fun h => by cases h
  getStates := by
    rintro ⟨a1, a2, a3, a4, a5, a6, a7, a8, ⟨d_dae, d_y1, d_der_y1, d_y2, d_der_y2, d_y3, d_r, d_g1, d_g2⟩, a9⟩
      ⟨b1, b2, b3, b4, b5, b6, b7, b8, ⟨e_dae, e_y1, e_der_y1, e_y2, e_der_y2, e_y3, e_r, e_g1, e_g2⟩, b9⟩ ctx ctx' p n ⟨la, lb, l, rfl⟩ h
    simp only [Same, key, MV.flags, MV.moreFlags, Prod.mk.injEq] at h
    obtain ⟨⟨rfl, rfl, rfl, rfl, rfl⟩, ⟨rfl, rfl⟩, rfl, rfl, rfl, rfl, rfl, rfl, rfl⟩ := h
    cases d_dae <;> (refine MRel.putVector tf ?_ ?_ ?_ <;> rfl)
  nominals := by
    rintro ⟨a1, a2, a3, a4, a5, a6, a7, a8, ⟨d_dae, d_y1, d_der_y1, d_y2, d_der_y2, d_y3, d_r, d_g1, d_g2⟩, a9⟩
      ⟨b1, b2, b3, b4, b5, b6, b7, b8, ⟨e_dae, e_y1, e_der_y1, e_y2, e_der_y2, e_y3, e_r, e_g1, e_g2⟩, b9⟩ ctx ctx' p n ⟨la, lb, l, rfl⟩ h
    simp only [Same, key, MV.flags, MV.moreFlags, Prod.mk.injEq] at h
    obtain ⟨⟨rfl, rfl, rfl, rfl, rfl⟩, ⟨rfl, rfl⟩, rfl, rfl, rfl, rfl, rfl, rfl, rfl⟩ := h
    cases d_dae <;> (refine MRel.putVector tf ?_ ?_ ?_ <;> rfl)
  setStates := by
    rintro ⟨a1, a2, a3, a4, a5, a6, a7, a8, ⟨d_dae, d_y1, d_der_y1, d_y2, d_der_y2, d_y3, d_r, d_g1, d_g2⟩, a9⟩
      ⟨b1, b2, b3, b4, b5, b6, b7, b8, ⟨e_dae, e_y1, e_der_y1, e_y2, e_der_y2, e_y3, e_r, e_g1, e_g2⟩, b9⟩ ctx ctx' p n ⟨la, lb, l, rfl⟩ h
    simp only [Same, key, MV.flags, MV.moreFlags, Prod.mk.injEq] at h
    obtain ⟨⟨rfl, rfl, rfl, rfl, rfl⟩, ⟨rfl, rfl⟩, rfl, rfl, rfl, rfl, rfl, rfl, rfl⟩ := h
    exact MRel.takeVector tf (by exact rfl) (by exact fun _ => rfl)
  deriv := by
    rintro ⟨a1, a2, a3, a4, a5, a6, a7, a8, ⟨d_dae, d_y1, d_der_y1, d_y2, d_der_y2, d_y3, d_r, d_g1, d_g2⟩, a9⟩
      ⟨b1, b2, b3, b4, b5, b6, b7, b8, ⟨e_dae, e_y1, e_der_y1, e_y2, e_der_y2, e_y3, e_r, e_g1, e_g2⟩, b9⟩ ctx ctx' p n ⟨la, lb, l, rfl⟩ h
    simp only [Same, key, MV.flags, MV.moreFlags, Prod.mk.injEq] at h
    obtain ⟨⟨rfl, rfl, rfl, rfl, rfl⟩, ⟨rfl, rfl⟩, rfl, rfl, rfl, rfl, rfl, rfl, rfl⟩ := h
    cases d_dae <;> (refine MRel.putVector tf ?_ ?_ ?_ <;> rfl)
  indicators := by
    rintro ⟨a1, a2, a3, a4, a5, a6, a7, a8, ⟨d_dae, d_y1, d_der_y1, d_y2, d_der_y2, d_y3, d_r, d_g1, d_g2⟩, a9⟩
      ⟨b1, b2, b3, b4, b5, b6, b7, b8, ⟨e_dae, e_y1, e_der_y1, e_y2, e_der_y2, e_y3, e_r, e_g1, e_g2⟩, b9⟩ ctx ctx' p n ⟨la, lb, l, rfl⟩ h
    simp only [Same, key, MV.flags, MV.moreFlags, Prod.mk.injEq] at h
    obtain ⟨⟨rfl, rfl, rfl, rfl, rfl⟩, ⟨rfl, rfl⟩, rfl, rfl, rfl, rfl, rfl, rfl, rfl⟩ := h
    cases d_dae <;> (refine MRel.putVector tf ?_ ?_ ?_ <;> rfl)
  getStatesV := by
    rintro ⟨a1, a2, a3, a4, a5, a6, a7, a8, ⟨d_dae, d_y1, d_der_y1, d_y2, d_der_y2, d_y3, d_r, d_g1, d_g2⟩, a9⟩
      ⟨b1, b2, b3, b4, b5, b6, b7, b8, ⟨e_dae, e_y1, e_der_y1, e_y2, e_der_y2, e_y3, e_r, e_g1, e_g2⟩, b9⟩ ctx ctx' p p' n ⟨la, lb, l, rfl⟩ h hl
    simp only [Same, key, MV.flags, MV.moreFlags, Prod.mk.injEq] at h
    obtain ⟨⟨rfl, rfl, rfl, rfl, rfl⟩, ⟨rfl, rfl⟩, rfl, rfl, rfl, rfl, rfl, rfl, rfl⟩ := h
    cases d_dae <;> (refine VecRel.putVector tf ?_ ?_ hl ?_ <;> rfl)
  derivV := by
    rintro ⟨a1, a2, a3, a4, a5, a6, a7, a8, ⟨d_dae, d_y1, d_der_y1, d_y2, d_der_y2, d_y3, d_r, d_g1, d_g2⟩, a9⟩
      ⟨b1, b2, b3, b4, b5, b6, b7, b8, ⟨e_dae, e_y1, e_der_y1, e_y2, e_der_y2, e_y3, e_r, e_g1, e_g2⟩, b9⟩ ctx ctx' p p' n ⟨la, lb, l, rfl⟩ h hl
    simp only [Same, key, MV.flags, MV.moreFlags, Prod.mk.injEq] at h
    obtain ⟨⟨rfl, rfl, rfl, rfl, rfl⟩, ⟨rfl, rfl⟩, rfl, rfl, rfl, rfl, rfl, rfl, rfl⟩ := h
    cases d_dae <;> (refine VecRel.putVector tf ?_ ?_ hl ?_ <;> rfl)
  indicatorsV := by
    rintro ⟨a1, a2, a3, a4, a5, a6, a7, a8, ⟨d_dae, d_y1, d_der_y1, d_y2, d_der_y2, d_y3, d_r, d_g1, d_g2⟩, a9⟩
      ⟨b1, b2, b3, b4, b5, b6, b7, b8, ⟨e_dae, e_y1, e_der_y1, e_y2, e_der_y2, e_y3, e_r, e_g1, e_g2⟩, b9⟩ ctx ctx' p p' n ⟨la, lb, l, rfl⟩ h hl
    simp only [Same, key, MV.flags, MV.moreFlags, Prod.mk.injEq] at h
    obtain ⟨⟨rfl, rfl, rfl, rfl, rfl⟩, ⟨rfl, rfl⟩, rfl, rfl, rfl, rfl, rfl, rfl, rfl⟩ := h
    cases d_dae <;> (refine VecRel.putVector tf ?_ ?_ hl ?_ <;> rfl)
  setStatesV := by
    rintro ⟨a1, a2, a3, a4, a5, a6, a7, a8, ⟨d_dae, d_y1, d_der_y1, d_y2, d_der_y2, d_y3, d_r, d_g1, d_g2⟩, a9⟩
      ⟨b1, b2, b3, b4, b5, b6, b7, b8, ⟨e_dae, e_y1, e_der_y1, e_y2, e_der_y2, e_y3, e_r, e_g1, e_g2⟩, b9⟩ ctx ctx' p p' n ⟨la, lb, l, rfl⟩ h hl
    simp only [Same, key, MV.flags, MV.moreFlags, Prod.mk.injEq] at h
    obtain ⟨⟨rfl, rfl, rfl, rfl, rfl⟩, ⟨rfl, rfl⟩, rfl, rfl, rfl, rfl, rfl, rfl, rfl⟩ := h
    exact SetRel.takeVector tf (by exact rfl) hl (by exact fun _ => rfl)
  indicatorsOK := by
    rintro - ctx mv l hl
    match l, hl with
    | [a, b], _ => exact ⟨_, _, rfl⟩
  partialDeriv := by
    rintro ⟨a1, a2, a3, a4, a5, a6, a7, a8, ⟨d_dae, d_y1, d_der_y1, d_y2, d_der_y2, d_y3, d_r, d_g1, d_g2⟩, a9⟩
      ⟨b1, b2, b3, b4, b5, b6, b7, b8, ⟨e_dae, e_y1, e_der_y1, e_y2, e_der_y2, e_y3, e_r, e_g1, e_g2⟩, b9⟩ ctx ctx' u k o ⟨la, lb, l, rfl⟩ h
    simp only [Same, key, MV.flags, MV.moreFlags, Prod.mk.injEq] at h
    obtain ⟨⟨rfl, rfl, rfl, rfl, rfl⟩, ⟨rfl, rfl⟩, rfl, rfl, rfl, rfl, rfl, rfl, rfl⟩ := h
    cases d_dae <;> exact .ret (by exact rfl)
  outDeriv := fun _ _ _ h => by cases h
  activate := fun _ _ h => .ret h
  getClock := fun _ _ _ h => .ret h
  getInterval := fun _ _ _ _ h => .ret h
  partition := fun _ _ _ h => .ret h
end Roberts

end Verif
