import Verif.Lemmas.RelBase
import Verif.Models.Clocks

/-! Observational equivalence of Clocks instances. -/

set_option linter.unusedSectionVars false
set_option linter.unusedSimpArgs false
set_option linter.unusedVariables false

namespace Verif

namespace Clocks
variable {F : Type} [Arith F]

/-- All values. -/
def key (mv : MV F (Data F)) := (mv.flags, mv.moreFlags, mv.data.inClock3_interval, mv.data.inClock3_qualifier, mv.data.outClock, mv.data.inClock1Ticks, mv.data.inClock2Ticks, mv.data.inClock3Ticks, mv.data.totalInClockTicks, mv.data.result2, mv.data.input2, mv.data.output3)

theorem same_data {mv mv' : MV F (Data F)} (h : Same key mv mv') : mv'.data = mv.data := by
  obtain ⟨a1, a2, a3, a4, a5, a6, a7, a8, ⟨d1, d2, d3, d4, d5, d6, d7, d8, d9, d10⟩, a9⟩ := mv
  obtain ⟨b1, b2, b3, b4, b5, b6, b7, b8, ⟨e1, e2, e3, e4, e5, e6, e7, e8, e9, e10⟩, b9⟩ := mv'
  simp only [Same, key, Prod.mk.injEq] at h
  simp [h]

/-- Instances whose flags and data agree. -/
theorem same_of {mv mv' w w' : MV F (Data F)} (h : Same key w w') (hd : mv.data = mv'.data)
    (h1 : mv.flags = w.flags) (h2 : mv'.flags = w'.flags) (h3 : mv.moreFlags = w.moreFlags)
    (h4 : mv'.moreFlags = w'.moreFlags) : Same key mv mv' := by
  simp only [Same, key, hd, h1, h2, h3, h4, Prod.mk.injEq] at h ⊢
  exact ⟨h.1, h.2.1, by simp⟩

theorem outcome_rel {r r' : Outcome (MV F (Data F))} (h : r.Rel (Same key) r') {s : Status} :
    MRel (Same key) (r >>- fun mv => .ret (mv, s, ())) (r' >>- fun mv => .ret (mv, s, ())) :=
  Outcome.Rel.bind h fun _ _ h => ⟨h, rfl⟩

theorem callClockUpdate_rel {mv mv' : MV F (Data F)} {ctx ctx' : Ctx F} (hc : CtxRel ctx ctx')
    (h : Same key mv mv') :
    (callClockUpdate ctx mv).Rel (Same key) (callClockUpdate ctx' mv') := by
  obtain ⟨la, lb, l, rfl⟩ := hc
  simp only [callClockUpdate]
  split
  · exact h
  · trivial

theorem callLock_rel {mv mv' : MV F (Data F)} {ctx ctx' : Ctx F} (hc : CtxRel ctx ctx')
    (h : Same key mv mv') : Same key (callLock ctx mv) (callLock ctx' mv') := by
  obtain ⟨la, lb, l, rfl⟩ := hc
  simp only [callLock]; split <;> exact h

theorem callUnlock_rel {mv mv' : MV F (Data F)} {ctx ctx' : Ctx F} (hc : CtxRel ctx ctx')
    (h : Same key mv mv') : Same key (callUnlock ctx mv) (callUnlock ctx' mv') := by
  obtain ⟨la, lb, l, rfl⟩ := hc
  simp only [callUnlock]; split <;> exact h

theorem finish_rel {mv mv' : MV F (Data F)} {ctx ctx' : Ctx F} (hc : CtxRel ctx ctx')
    (h : Same key mv mv') (p : Prop) [Decidable p] :
    (if p then callClockUpdate ctx mv else .ret mv : Outcome (MV F (Data F))).Rel (Same key)
      (if p then callClockUpdate ctx' mv' else .ret mv') := by
  split
  · exact callClockUpdate_rel hc h
  · exact h

theorem partition1_rel {mv mv' : MV F (Data F)} {ctx ctx' : Ctx F} (t : F) (hc : CtxRel ctx ctx')
    (h : Same key mv mv') : (partition1 ctx mv t).Rel (Same key) (partition1 ctx' mv' t) := by
  simp only [partition1, same_data h]
  refine .same fun t1 _ => .same fun tot _ => ?_
  cases Arith.toInt t with
  | none => trivial
  | some it =>
    simp only
    exact finish_rel hc (same_of (w := mv) (w' := mv') h (by rfl) (by rfl) (by rfl) (by rfl) (by rfl)) _

theorem partition2_rel {mv mv' : MV F (Data F)} {ctx ctx' : Ctx F} (hc : CtxRel ctx ctx')
    (h : Same key mv mv') : (partition2 ctx mv).Rel (Same key) (partition2 ctx' mv') := by
  have h1 := callLock_rel hc h
  simp only [partition2, same_data h1]
  refine .same fun t1 _ => .same fun tot _ => .same fun res _ => ?_
  exact finish_rel hc (callUnlock_rel hc (same_of (w := _) (w' := _) h1 (by rfl) (by rfl) (by rfl) (by rfl) (by rfl))) _

theorem partition3_rel {mv mv' : MV F (Data F)} {ctx ctx' : Ctx F} (hc : CtxRel ctx ctx')
    (h : Same key mv mv') : (partition3 ctx mv).Rel (Same key) (partition3 ctx' mv') := by
  simp only [partition3, same_data h]
  refine .same fun t1 _ => ?_
  have h1 := callLock_rel hc (same_of (mv := { mv with data := { mv.data with inClock3Ticks := t1, output3 := 1000 } })
    (mv' := { mv' with data := { mv.data with inClock3Ticks := t1, output3 := 1000 } }) h rfl rfl rfl rfl rfl)
  rw [same_data h1]
  refine .same fun tot _ => ?_
  exact finish_rel hc (callUnlock_rel hc (same_of (w := _) (w' := _) h1 (by rfl) (by rfl) (by rfl) (by rfl) (by rfl))) _

theorem get_getFloat64 {mv mv' : MV F (Data F)} {ctx ctx' : Ctx F} (vr p n i) (hc : CtxRel ctx ctx')
    (h : Same key mv mv') : MRel (Same key) (getFloat64 ctx mv vr p n i) (getFloat64 ctx' mv' vr p n i) := by
  obtain ⟨a1, a2, a3, a4, a5, a6, a7, a8, ⟨d_inClock3_interval, d_inClock3_qualifier, d_outClock, d_inClock1Ticks, d_inClock2Ticks, d_inClock3Ticks, d_totalInClockTicks, d_result2, d_input2, d_output3⟩, a9⟩ := mv
  obtain ⟨b1, b2, b3, b4, b5, b6, b7, b8, ⟨e_inClock3_interval, e_inClock3_qualifier, e_outClock, e_inClock1Ticks, e_inClock2Ticks, e_inClock3Ticks, e_totalInClockTicks, e_result2, e_input2, e_output3⟩, b9⟩ := mv'
  obtain ⟨la, lb, l, rfl⟩ := hc
  simp only [Same, key, MV.flags, MV.moreFlags, Prod.mk.injEq] at h
  obtain ⟨⟨rfl, rfl, rfl, rfl, rfl⟩, ⟨rfl, rfl⟩, rfl, rfl, rfl, rfl, rfl, rfl, rfl, rfl, rfl, rfl⟩ := h
  simp only [getFloat64]
  mrel

theorem get_getInt32 {mv mv' : MV F (Data F)} {ctx ctx' : Ctx F} (vr p n i) (hc : CtxRel ctx ctx')
    (h : Same key mv mv') : MRel (Same key) (getInt32 ctx mv vr p n i) (getInt32 ctx' mv' vr p n i) := by
  obtain ⟨a1, a2, a3, a4, a5, a6, a7, a8, ⟨d_inClock3_interval, d_inClock3_qualifier, d_outClock, d_inClock1Ticks, d_inClock2Ticks, d_inClock3Ticks, d_totalInClockTicks, d_result2, d_input2, d_output3⟩, a9⟩ := mv
  obtain ⟨b1, b2, b3, b4, b5, b6, b7, b8, ⟨e_inClock3_interval, e_inClock3_qualifier, e_outClock, e_inClock1Ticks, e_inClock2Ticks, e_inClock3Ticks, e_totalInClockTicks, e_result2, e_input2, e_output3⟩, b9⟩ := mv'
  obtain ⟨la, lb, l, rfl⟩ := hc
  simp only [Same, key, MV.flags, MV.moreFlags, Prod.mk.injEq] at h
  obtain ⟨⟨rfl, rfl, rfl, rfl, rfl⟩, ⟨rfl, rfl⟩, rfl, rfl, rfl, rfl, rfl, rfl, rfl, rfl, rfl, rfl⟩ := h
  simp only [getInt32]
  mrel

theorem set_setInt32 {mv mv' : MV F (Data F)} {ctx ctx' : Ctx F} (vr p n i) (hc : CtxRel ctx ctx')
    (h : Same key mv mv') : MRel (Same key) (setInt32 ctx mv vr p n i) (setInt32 ctx' mv' vr p n i) := by
  obtain ⟨a1, a2, a3, a4, a5, a6, a7, a8, ⟨d_inClock3_interval, d_inClock3_qualifier, d_outClock, d_inClock1Ticks, d_inClock2Ticks, d_inClock3Ticks, d_totalInClockTicks, d_result2, d_input2, d_output3⟩, a9⟩ := mv
  obtain ⟨b1, b2, b3, b4, b5, b6, b7, b8, ⟨e_inClock3_interval, e_inClock3_qualifier, e_outClock, e_inClock1Ticks, e_inClock2Ticks, e_inClock3Ticks, e_totalInClockTicks, e_result2, e_input2, e_output3⟩, b9⟩ := mv'
  obtain ⟨la, lb, l, rfl⟩ := hc
  simp only [Same, key, MV.flags, MV.moreFlags, Prod.mk.injEq] at h
  obtain ⟨⟨rfl, rfl, rfl, rfl, rfl⟩, ⟨rfl, rfl⟩, rfl, rfl, rfl, rfl, rfl, rfl, rfl, rfl, rfl, rfl⟩ := h
  simp only [setInt32]
  mrel

theorem tf : TraceFree (F := F) (Same (D := (Data F)) key) := fun _ _ _ _ h => h

theorem respects : Respects (F := F) (model) (Same key) where
  trace := tf
  dirty := fun _ h => h
  term := fun h => by
    simp only [Same, key, MV.flags, MV.moreFlags, Prod.mk.injEq] at h; simp [h]
  netd := fun h => by
    simp only [Same, key, MV.flags, MV.moreFlags, Prod.mk.injEq] at h; simp [h]
  net := fun h => by
    simp only [Same, key, MV.flags, MV.moreFlags, Prod.mk.injEq] at h; simp [h]
  numX := fun _ => rfl
  numZ := fun _ => rfl
  info := fun _ h => by cases h
  start := by
    rintro mv mv' ctx ctx' ⟨la, lb, l, rfl⟩ h
    simp only [Same, key, MV.flags, MV.moreFlags, Prod.mk.injEq] at h
    simp only [Same, key, MV.flags, MV.moreFlags, Prod.mk.injEq]
    simp [model, setStartValues, h]
  refresh := by
    rintro mv mv' ctx ctx' hc h
    simp only [refreshM, model]
    split <;> split <;> exact ⟨h, rfl⟩
  get := by
    intro mv mv' ctx ctx' t vr p n i hc h
    cases t
    case float64 => exact get_getFloat64 vr p n i hc h
    case int32 => exact get_getInt32 vr p n i hc h
    all_goals exact .fail tf h
  set := by
    intro mv mv' ctx ctx' t vr p n i hc h
    cases t
    case int32 => exact set_setInt32 vr p n i hc h
    all_goals exact .fail tf h
  event := by
    intro mv mv' ctx ctx' eu he hc h
    cases he
    refine ⟨h, rfl, fun _ => ?_⟩
    simp only [Same, key, MV.flags, MV.moreFlags, Prod.mk.injEq] at h; simp [h, MV.eventInfo]
  getStates := fun _ _ _ h => .vecStub tf h
  nominals := fun _ _ _ h => .vecStub tf h
  setStates := fun _ _ _ h => .vecStub tf h
  deriv := fun _ _ _ h => .vecStub tf h
  indicators := fun _ _ _ h => .vecStub tf h
  getStatesV := fun _ _ _ _ h hl => .stub tf h hl
  derivV := fun _ _ _ _ h hl => .stub tf h hl
  indicatorsV := fun _ _ _ _ h hl => .stub tf h hl
  setStatesV := fun _ _ _ _ h _ => .stub tf h
  indicatorsOK := fun h => by cases h
  partialDeriv := fun _ _ _ _ h => .fail tf h
  outDeriv := fun _ _ _ h => by cases h
  activate := fun _ _ h => .ret h
  getClock := by
    rintro ⟨a1, a2, a3, a4, a5, a6, a7, a8, ⟨d_inClock3_interval, d_inClock3_qualifier, d_outClock, d_inClock1Ticks, d_inClock2Ticks, d_inClock3Ticks, d_totalInClockTicks, d_result2, d_input2, d_output3⟩, a9⟩
      ⟨b1, b2, b3, b4, b5, b6, b7, b8, ⟨e_inClock3_interval, e_inClock3_qualifier, e_outClock, e_inClock1Ticks, e_inClock2Ticks, e_inClock3Ticks, e_totalInClockTicks, e_result2, e_input2, e_output3⟩, b9⟩ ctx ctx' vr o ⟨la, lb, l, rfl⟩ h
    simp only [Same, key, MV.flags, MV.moreFlags, Prod.mk.injEq] at h
    obtain ⟨⟨rfl, rfl, rfl, rfl, rfl⟩, ⟨rfl, rfl⟩, rfl, rfl, rfl, rfl, rfl, rfl, rfl, rfl, rfl, rfl⟩ := h
    simp only [model, getClock]
    mrel
  getInterval := by
    rintro ⟨a1, a2, a3, a4, a5, a6, a7, a8, ⟨d_inClock3_interval, d_inClock3_qualifier, d_outClock, d_inClock1Ticks, d_inClock2Ticks, d_inClock3Ticks, d_totalInClockTicks, d_result2, d_input2, d_output3⟩, a9⟩
      ⟨b1, b2, b3, b4, b5, b6, b7, b8, ⟨e_inClock3_interval, e_inClock3_qualifier, e_outClock, e_inClock1Ticks, e_inClock2Ticks, e_inClock3Ticks, e_totalInClockTicks, e_result2, e_input2, e_output3⟩, b9⟩ ctx ctx' vr i q ⟨la, lb, l, rfl⟩ h
    simp only [Same, key, MV.flags, MV.moreFlags, Prod.mk.injEq] at h
    obtain ⟨⟨rfl, rfl, rfl, rfl, rfl⟩, ⟨rfl, rfl⟩, rfl, rfl, rfl, rfl, rfl, rfl, rfl, rfl, rfl, rfl⟩ := h
    simp only [model, getInterval]
    mrel
  partition := by
    intro mv mv' ctx ctx' vr t hc h
    simp only [model, activateModelPartition]
    split
    · exact outcome_rel (partition1_rel t hc h)
    · exact outcome_rel (partition2_rel hc h)
    · exact outcome_rel (partition3_rel hc h)
    · exact .fail tf h
end Clocks

end Verif
