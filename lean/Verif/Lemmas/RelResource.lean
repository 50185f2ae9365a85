import Verif.Lemmas.RelBase
import Verif.Models.Resource

/-! Observational equivalence of Resource instances. -/

set_option linter.unusedSectionVars false
set_option linter.unusedSimpArgs false
set_option linter.unusedVariables false

namespace Verif

namespace Resource
variable {F : Type} [Arith F]

/-- All values, and the dirty flag, because recomputing the values may fail. -/
def key (mv : MV F Data) := (mv.flags, mv.moreFlags, mv.isDirtyValues, mv.data.y)

theorem tf : TraceFree (F := F) (Same (D := Data) key) := fun _ _ _ _ h => h

theorem calc_rel {ver3 : Bool} {fs : FileSystem} {mv mv' : MV F Data} {ctx ctx' : Ctx F}
    (hc : CtxRel ctx ctx') (h : Same key mv mv') :
    MRel (Same key) (calculateValues ver3 fs ctx mv) (calculateValues ver3 fs ctx' mv') := by
  obtain ⟨la, lb, l, rfl⟩ := hc
  simp only [calculateValues]
  refine .bind fun r _ => ?_
  cases r with
  | error msg => exact .fail tf h
  | path p =>
    simp only
    cases fs p with
    | none => exact .fail tf h
    | some c =>
      refine .ret ?_
      simp only [Same, key, Prod.mk.injEq] at h ⊢
      simp_all [MV.flags, MV.moreFlags]

theorem get_getFloat64 {mv mv' : MV F Data} {ctx ctx' : Ctx F} {ver3 : Bool} {fs : FileSystem} (vr p n i)
    (hc : CtxRel ctx ctx') (h : Same key mv mv') :
    MRel (Same key) (getFloat64 ver3 fs ctx mv vr p n i) (getFloat64 ver3 fs ctx' mv' vr p n i) := by
  simp only [getFloat64]
  refine .notNull tf h (.then (calc_rel hc h) fun mv mv' x h => ?_)
  obtain ⟨la, lb, l, rfl⟩ := hc
  match vr with
  | 0 => exact .putScalar tf h rfl
  | _ + 1 => exact .fail tf h

theorem get_getInt32 {mv mv' : MV F Data} {ctx ctx' : Ctx F} {ver3 : Bool} {fs : FileSystem} (vr p n i)
    (hc : CtxRel ctx ctx') (h : Same key mv mv') :
    MRel (Same key) (getInt32 ver3 fs ctx mv vr p n i) (getInt32 ver3 fs ctx' mv' vr p n i) := by
  simp only [getInt32]
  refine .notNull tf h (.then (calc_rel hc h) fun mv mv' x h => ?_)
  obtain ⟨la, lb, l, rfl⟩ := hc
  match vr with
  | 1 => exact .putScalar tf h (by simp only [Same, key, Prod.mk.injEq] at h; exact h.2.2.2)
  | 0 => exact .fail tf h
  | _ + 2 => exact .fail tf h

theorem respects {ver3 : Bool} {fs : FileSystem} : Respects (F := F) (model ver3 fs) (Same key) where
  trace := tf
  dirty := fun b h => by
    simp only [Same, key, Prod.mk.injEq] at h ⊢; simp_all [MV.flags, MV.moreFlags]
  term := fun h => by
    simp only [Same, key, MV.flags, MV.moreFlags, Prod.mk.injEq] at h; simp [h]
  netd := fun h => by
    simp only [Same, key, MV.flags, MV.moreFlags, Prod.mk.injEq] at h; simp [h]
  net := fun h => by
    simp only [Same, key, MV.flags, MV.moreFlags, Prod.mk.injEq] at h; simp [h]
  numX := fun _ => rfl
  numZ := fun _ => rfl
  info := fun h _ => by
    simp only [Same, key, MV.flags, MV.moreFlags, Prod.mk.injEq] at h; simp [h, MV.eventInfo]
  start := by
    rintro mv mv' ctx ctx' ⟨la, lb, l, rfl⟩ h
    simp only [Same, key, MV.flags, MV.moreFlags, Prod.mk.injEq] at h
    simp only [Same, key, MV.flags, MV.moreFlags, Prod.mk.injEq]
    simp [model, setStartValues, h]
  refresh := by
    intro mv mv' ctx ctx' hc h
    have hd : mv'.isDirtyValues = mv.isDirtyValues := by
      simp only [Same, key, Prod.mk.injEq] at h; exact h.2.2.1.symm
    simp only [refreshM, model, hd]
    split
    · refine .then (calc_rel hc h) fun mv mv' x h => ?_
      refine .ret ?_
      split
      · simp only [Same, key, Prod.mk.injEq] at h ⊢; simp_all [MV.flags, MV.moreFlags]
      · exact h
    · exact .ret h
  get := by
    intro mv mv' ctx ctx' t vr p n i hc h
    cases t
    case float64 => exact get_getFloat64 vr p n i hc h
    case int32 => exact get_getInt32 vr p n i hc h
    all_goals exact .fail tf h
  set := by
    intro mv mv' ctx ctx' t vr p n i hc h
    cases t
    all_goals exact .fail tf h
  event := fun h => by cases h
  getStates := fun _ _ _ h => .vecStub tf h
  nominals := fun _ _ _ h => .vecStub tf h
  setStates := fun _ _ _ h => .vecStub tf h
  deriv := fun _ _ _ h => .vecStub tf h
  indicators := fun _ _ _ h => .vecStub tf h
  getStatesV := fun _ _ _ _ h hl => .stub tf h hl
  derivV := fun _ _ _ _ h hl => .stub tf h hl
  indicatorsV := fun _ _ _ _ h hl => .stub tf h hl
  setStatesV := fun _ _ _ _ h _ => .stub tf h
  indicatorsOK := fun h => by cases h
  partialDeriv := fun _ _ _ _ h => .fail tf h
  outDeriv := fun _ _ _ h => by cases h
  activate := fun _ _ h => .ret h
  getClock := fun _ _ _ h => .ret h
  getInterval := fun _ _ _ _ h => .ret h
  partition := fun _ _ _ h => .ret h
end Resource

end Verif
