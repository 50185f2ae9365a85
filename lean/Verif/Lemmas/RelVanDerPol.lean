import Verif.Lemmas.RelBase
import Verif.Models.VanDerPol

/-! Observational equivalence of VanDerPol instances. -/

set_option linter.unusedSectionVars false
set_option linter.unusedSimpArgs false
set_option linter.unusedVariables false

namespace Verif

namespace VanDerPol
variable {F : Type} [Arith F]

/-- Everything but the derivatives, which are recomputed before they are read. -/
def key (mv : MV F (Data F)) := (mv.flags, mv.moreFlags, mv.data.x0, mv.data.x1, mv.data.mu)

theorem get_getFloat64 {mv mv' : MV F (Data F)} {ctx ctx' : Ctx F} (vr p n i) (hc : CtxRel ctx ctx')
    (h : Same key mv mv') : MRel (Same key) (getFloat64 ctx mv vr p n i) (getFloat64 ctx' mv' vr p n i) := by
  obtain ⟨a1, a2, a3, a4, a5, a6, a7, a8, ⟨d_x0, d_der_x0, d_x1, d_der_x1, d_mu⟩, a9⟩ := mv
  obtain ⟨b1, b2, b3, b4, b5, b6, b7, b8, ⟨e_x0, e_der_x0, e_x1, e_der_x1, e_mu⟩, b9⟩ := mv'
  obtain ⟨la, lb, l, rfl⟩ := hc
  simp only [Same, key, MV.flags, MV.moreFlags, Prod.mk.injEq] at h
  obtain ⟨⟨rfl, rfl, rfl, rfl, rfl⟩, ⟨rfl, rfl⟩, rfl, rfl, rfl⟩ := h
  simp only [getFloat64]
  mrel

theorem set_setFloat64 {mv mv' : MV F (Data F)} {ctx ctx' : Ctx F} (vr p n i) (hc : CtxRel ctx ctx')
    (h : Same key mv mv') : MRel (Same key) (setFloat64 ctx mv vr p n i) (setFloat64 ctx' mv' vr p n i) := by
  obtain ⟨a1, a2, a3, a4, a5, a6, a7, a8, ⟨d_x0, d_der_x0, d_x1, d_der_x1, d_mu⟩, a9⟩ := mv
  obtain ⟨b1, b2, b3, b4, b5, b6, b7, b8, ⟨e_x0, e_der_x0, e_x1, e_der_x1, e_mu⟩, b9⟩ := mv'
  obtain ⟨la, lb, l, rfl⟩ := hc
  simp only [Same, key, MV.flags, MV.moreFlags, Prod.mk.injEq] at h
  obtain ⟨⟨rfl, rfl, rfl, rfl, rfl⟩, ⟨rfl, rfl⟩, rfl, rfl, rfl⟩ := h
  simp only [setFloat64]
  mrel

theorem tf : TraceFree (F := F) (Same (D := (Data F)) key) := fun _ _ _ _ h => h

theorem respects : Respects (F := F) (model) (Same key) where
  trace := tf
  dirty := fun _ h => h
  term := fun h => by
    simp only [Same, key, MV.flags, MV.moreFlags, Prod.mk.injEq] at h; simp [h]
  netd := fun h => by
    simp only [Same, key, MV.flags, MV.moreFlags, Prod.mk.injEq] at h; simp [h]
  net := fun h => by
    simp only [Same, key, MV.flags, MV.moreFlags, Prod.mk.injEq] at h; simp [h]
  numX := fun _ => rfl
  numZ := fun _ => rfl
  info := fun h _ => by
    simp only [Same, key, MV.flags, MV.moreFlags, Prod.mk.injEq] at h; simp [h, MV.eventInfo]
  start := by
    rintro mv mv' ctx ctx' ⟨la, lb, l, rfl⟩ h
    simp only [Same, key, MV.flags, MV.moreFlags, Prod.mk.injEq] at h
    simp only [Same, key, MV.flags, MV.moreFlags, Prod.mk.injEq]
    simp [model, setStartValues, h]
  refresh := by
    rintro mv mv' ctx ctx' ⟨la, lb, l, rfl⟩ h
    simp only [refreshM, model]
    split <;> split <;> exact ⟨h, rfl⟩
  get := by
    intro mv mv' ctx ctx' t vr p n i hc h
    cases t
    case float64 => exact get_getFloat64 vr p n i hc h
    all_goals exact .fail tf h
  set := by
    intro mv mv' ctx ctx' t vr p n i hc h
    cases t
    case float64 => exact set_setFloat64 vr p n i hc h
    all_goals exact .fail tf h
  event := fun h => by cases h
  getStates := by
    rintro ⟨a1, a2, a3, a4, a5, a6, a7, a8, ⟨d_x0, d_der_x0, d_x1, d_der_x1, d_mu⟩, a9⟩
      ⟨b1, b2, b3, b4, b5, b6, b7, b8, ⟨e_x0, e_der_x0, e_x1, e_der_x1, e_mu⟩, b9⟩ ctx ctx' p n ⟨la, lb, l, rfl⟩ h
    simp only [Same, key, MV.flags, MV.moreFlags, Prod.mk.injEq] at h
    obtain ⟨⟨rfl, rfl, rfl, rfl, rfl⟩, ⟨rfl, rfl⟩, rfl, rfl, rfl⟩ := h
    refine MRel.putVector tf ?_ ?_ ?_ <;> rfl
  nominals := by
    rintro ⟨a1, a2, a3, a4, a5, a6, a7, a8, ⟨d_x0, d_der_x0, d_x1, d_der_x1, d_mu⟩, a9⟩
      ⟨b1, b2, b3, b4, b5, b6, b7, b8, ⟨e_x0, e_der_x0, e_x1, e_der_x1, e_mu⟩, b9⟩ ctx ctx' p n ⟨la, lb, l, rfl⟩ h
    simp only [Same, key, MV.flags, MV.moreFlags, Prod.mk.injEq] at h
    obtain ⟨⟨rfl, rfl, rfl, rfl, rfl⟩, ⟨rfl, rfl⟩, rfl, rfl, rfl⟩ := h
    refine MRel.putVector tf ?_ ?_ ?_ <;> rfl
  setStates := by
    rintro ⟨a1, a2, a3, a4, a5, a6, a7, a8, ⟨d_x0, d_der_x0, d_x1, d_der_x1, d_mu⟩, a9⟩
      ⟨b1, b2, b3, b4, b5, b6, b7, b8, ⟨e_x0, e_der_x0, e_x1, e_der_x1, e_mu⟩, b9⟩ ctx ctx' p n ⟨la, lb, l, rfl⟩ h
    simp only [Same, key, MV.flags, MV.moreFlags, Prod.mk.injEq] at h
    obtain ⟨⟨rfl, rfl, rfl, rfl, rfl⟩, ⟨rfl, rfl⟩, rfl, rfl, rfl⟩ := h
    exact MRel.takeVector tf (by exact rfl) (by exact fun _ => rfl)
  deriv := by
    rintro ⟨a1, a2, a3, a4, a5, a6, a7, a8, ⟨d_x0, d_der_x0, d_x1, d_der_x1, d_mu⟩, a9⟩
      ⟨b1, b2, b3, b4, b5, b6, b7, b8, ⟨e_x0, e_der_x0, e_x1, e_der_x1, e_mu⟩, b9⟩ ctx ctx' p n ⟨la, lb, l, rfl⟩ h
    simp only [Same, key, MV.flags, MV.moreFlags, Prod.mk.injEq] at h
    obtain ⟨⟨rfl, rfl, rfl, rfl, rfl⟩, ⟨rfl, rfl⟩, rfl, rfl, rfl⟩ := h
    refine MRel.putVector tf ?_ ?_ ?_ <;> rfl
  indicators := fun _ _ _ h => .vecStub tf h
  getStatesV := by
    rintro ⟨a1, a2, a3, a4, a5, a6, a7, a8, ⟨d_x0, d_der_x0, d_x1, d_der_x1, d_mu⟩, a9⟩
      ⟨b1, b2, b3, b4, b5, b6, b7, b8, ⟨e_x0, e_der_x0, e_x1, e_der_x1, e_mu⟩, b9⟩ ctx ctx' p p' n ⟨la, lb, l, rfl⟩ h hl
    simp only [Same, key, MV.flags, MV.moreFlags, Prod.mk.injEq] at h
    obtain ⟨⟨rfl, rfl, rfl, rfl, rfl⟩, ⟨rfl, rfl⟩, rfl, rfl, rfl⟩ := h
    refine VecRel.putVector tf ?_ ?_ hl ?_ <;> rfl
  derivV := by
    rintro ⟨a1, a2, a3, a4, a5, a6, a7, a8, ⟨d_x0, d_der_x0, d_x1, d_der_x1, d_mu⟩, a9⟩
      ⟨b1, b2, b3, b4, b5, b6, b7, b8, ⟨e_x0, e_der_x0, e_x1, e_der_x1, e_mu⟩, b9⟩ ctx ctx' p p' n ⟨la, lb, l, rfl⟩ h hl
    simp only [Same, key, MV.flags, MV.moreFlags, Prod.mk.injEq] at h
    obtain ⟨⟨rfl, rfl, rfl, rfl, rfl⟩, ⟨rfl, rfl⟩, rfl, rfl, rfl⟩ := h
    refine VecRel.putVector tf ?_ ?_ hl ?_ <;> rfl
  indicatorsV := fun _ _ _ _ h hl => .stub tf h hl
  setStatesV := by
    rintro ⟨a1, a2, a3, a4, a5, a6, a7, a8, ⟨d_x0, d_der_x0, d_x1, d_der_x1, d_mu⟩, a9⟩
      ⟨b1, b2, b3, b4, b5, b6, b7, b8, ⟨e_x0, e_der_x0, e_x1, e_der_x1, e_mu⟩, b9⟩ ctx ctx' p p' n ⟨la, lb, l, rfl⟩ h hl
    simp only [Same, key, MV.flags, MV.moreFlags, Prod.mk.injEq] at h
    obtain ⟨⟨rfl, rfl, rfl, rfl, rfl⟩, ⟨rfl, rfl⟩, rfl, rfl, rfl⟩ := h
    exact SetRel.takeVector tf (by exact rfl) hl (by exact fun _ => rfl)
  indicatorsOK := fun h => by cases h
  partialDeriv := by
    rintro ⟨a1, a2, a3, a4, a5, a6, a7, a8, ⟨d_x0, d_der_x0, d_x1, d_der_x1, d_mu⟩, a9⟩
      ⟨b1, b2, b3, b4, b5, b6, b7, b8, ⟨e_x0, e_der_x0, e_x1, e_der_x1, e_mu⟩, b9⟩ ctx ctx' u k o ⟨la, lb, l, rfl⟩ h
    simp only [Same, key, MV.flags, MV.moreFlags, Prod.mk.injEq] at h
    obtain ⟨⟨rfl, rfl, rfl, rfl, rfl⟩, ⟨rfl, rfl⟩, rfl, rfl, rfl⟩ := h
    exact .ret rfl
  outDeriv := fun _ _ _ h => by cases h
  activate := fun _ _ h => .ret h
  getClock := fun _ _ _ h => .ret h
  getInterval := fun _ _ _ _ h => .ret h
  partition := fun _ _ _ h => .ret h
end VanDerPol

end Verif
