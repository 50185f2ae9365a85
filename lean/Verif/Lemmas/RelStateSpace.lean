import Verif.Lemmas.RelBase
import Verif.Models.StateSpace

/-! Observational equivalence of StateSpace instances. -/

set_option linter.unusedSectionVars false
set_option linter.unusedSimpArgs false
set_option linter.unusedVariables false

namespace Verif

namespace StateSpace
variable {F : Type} [Arith F]

/-- The dirty flag, if recomputing the values would be undefined. -/
def dirtyOut (mv : MV F (Data F)) : Option Bool :=
  if inBounds mv.data then none else some mv.isDirtyValues

/-- Everything but outputs and derivatives, which are recomputed before they are read.
`nominalsChanged` and `valuesChanged` are set by every event update. -/
def key (mv : MV F (Data F)) := (mv.flags, mv.data.m, mv.data.n, mv.data.r, mv.data.A, mv.data.B,
  mv.data.C, mv.data.D, mv.data.x0, mv.data.u, mv.data.x, dirtyOut mv)

theorem tf : TraceFree (F := F) (Same (D := Data F) key) := fun _ _ _ _ h => h

/-- What equal keys mean. -/
structure Eqs (mv mv' : MV F (Data F)) : Prop where
  flags : mv'.flags = mv.flags
  m : mv'.data.m = mv.data.m
  n : mv'.data.n = mv.data.n
  r : mv'.data.r = mv.data.r
  A : mv'.data.A = mv.data.A
  B : mv'.data.B = mv.data.B
  C : mv'.data.C = mv.data.C
  D : mv'.data.D = mv.data.D
  x0 : mv'.data.x0 = mv.data.x0
  u : mv'.data.u = mv.data.u
  x : mv'.data.x = mv.data.x
  out : dirtyOut mv' = dirtyOut mv

theorem eqs {mv mv' : MV F (Data F)} (h : Same key mv mv') : Eqs mv mv' := by
  simp only [Same, key, Prod.mk.injEq] at h
  obtain ⟨h1, h2, h3, h4, h5, h6, h7, h8, h9, h10, h11, h12⟩ := h
  exact ⟨h1.symm, h2.symm, h3.symm, h4.symm, h5.symm, h6.symm, h7.symm, h8.symm, h9.symm,
    h10.symm, h11.symm, h12.symm⟩

theorem Eqs.same {mv mv' : MV F (Data F)} (h : Eqs mv mv') : Same key mv mv' := by
  obtain ⟨h1, h2, h3, h4, h5, h6, h7, h8, h9, h10, h11, h12⟩ := h
  simp [Same, key, *]

theorem Eqs.bounds {mv mv' : MV F (Data F)} (h : Eqs mv mv') :
    inBounds mv'.data = inBounds mv.data := by simp [inBounds, h.m, h.n, h.r]

/-- Equal dimensions and dirty flags. -/
theorem dirtyOut_set {mv mv' : MV F (Data F)} (hm : mv'.data.m = mv.data.m)
    (hn : mv'.data.n = mv.data.n) (hr : mv'.data.r = mv.data.r)
    (hb : mv'.isDirtyValues = mv.isDirtyValues) : dirtyOut mv' = dirtyOut mv := by
  simp [dirtyOut, inBounds, hm, hn, hr, hb]

theorem elems_congr {n : Nat} {f g : Nat → F} (h : ∀ i, i < n → f i = g i) :
    elems n f = elems n g := by
  unfold elems
  exact List.map_congr_left fun i hi => h i (List.mem_range.1 hi)

theorem putBlock_rel {mv mv' : MV F (Data F)} {ctx ctx' : Ctx F} {p : Ptr F} {n i : Nat}
    {l l' : List F} (h : Same key mv mv') (hl : l = l') :
    MRel (Same key) (putBlock ctx mv p n i l) (putBlock ctx' mv' p n i l') := by
  subst hl
  exact .nValues tf h (.bind fun _ _ => .ret h)

theorem takeBlock_rel {mv mv' : MV F (Data F)} {ctx ctx' : Ctx F} {p : Ptr F} {n i k k' : Nat}
    {upd upd' : List F → Data F} (h : Same key mv mv') (hk : k = k')
    (hu : ∀ v, Eqs { mv with data := upd v, isDirtyValues := true }
      { mv' with data := upd' v, isDirtyValues := true }) :
    MRel (Same key) (takeBlock ctx mv p n i k upd) (takeBlock ctx' mv' p n i k' upd') := by
  subst hk
  refine .nValues tf h ?_
  simp only [guarded, (eqs h).bounds]
  split
  · exact .bind fun _ _ => .ret (hu _).same
  · exact .ub

theorem calc_eqs {mv mv' : MV F (Data F)} (h : Eqs mv mv') :
    Eqs (calcValues mv) (calcValues mv') :=
  ⟨h.flags, h.m, h.n, h.r, h.A, h.B, h.C, h.D, h.x0, h.u, h.x, dirtyOut_set (by exact h.m) (by exact h.n) (by exact h.r) (by rfl)⟩

theorem calc_rel {β : Type} {mv mv' : MV F (Data F)} (h : Same key mv mv')
    {k k' : MV F (Data F) → MRes F (Data F) β}
    (hk : MRel (Same key) (k (calcValues mv)) (k' (calcValues mv'))) :
    MRel (Same key) (calculateValues mv >>- k) (calculateValues mv' >>- k') := by
  simp only [calculateValues, guarded, (eqs h).bounds]
  split
  · exact hk
  · exact .ub

theorem calc_y {mv mv' : MV F (Data F)} (h : Eqs mv mv') :
    elems mv'.data.r (calcValues mv').data.y = elems mv.data.r (calcValues mv).data.y := by
  rw [h.r]
  refine elems_congr fun i hi => ?_
  simp [calcValues, h.r, h.n, h.m, h.C, h.D, h.x, h.u, hi]

theorem calc_der {mv mv' : MV F (Data F)} (h : Eqs mv mv') :
    elems mv'.data.n (calcValues mv').data.der_x = elems mv.data.n (calcValues mv).data.der_x := by
  rw [h.n]
  refine elems_congr fun i hi => ?_
  simp [calcValues, h.r, h.n, h.m, h.A, h.B, h.x, h.u, hi]

theorem get_getFloat64 {mv mv' : MV F (Data F)} {ctx ctx' : Ctx F} (vr p n i)
    (hc : CtxRel ctx ctx') (h : Same key mv mv') :
    MRel (Same key) (getFloat64 ctx mv vr p n i) (getFloat64 ctx' mv' vr p n i) := by
  have e := eqs h
  have h' : Same key (calcValues mv) (calcValues mv') := (calc_eqs e).same
  obtain ⟨la, lb, l, rfl⟩ := hc
  refine .notNull tf h (calc_rel h ?_)
  simp only
  split
  · exact .putScalar tf h' rfl
  · exact putBlock_rel h' (by simp [calcValues, e.n, e.A])
  · exact putBlock_rel h' (by simp [calcValues, e.n, e.m, e.B])
  · exact putBlock_rel h' (by simp [calcValues, e.n, e.r, e.C])
  · exact putBlock_rel h' (by simp [calcValues, e.m, e.r, e.D])
  · exact putBlock_rel h' (by simp [calcValues, e.n, e.x0])
  · exact putBlock_rel h' (by simp [calcValues, e.m, e.u])
  · exact putBlock_rel h' (calc_y e).symm
  · exact putBlock_rel h' (by simp [calcValues, e.n, e.x])
  · exact putBlock_rel h' (calc_der e).symm
  · exact .fail tf h'

theorem set_setFloat64 {mv mv' : MV F (Data F)} {ctx ctx' : Ctx F} (vr p n i)
    (hc : CtxRel ctx ctx') (h : Same key mv mv') :
    MRel (Same key) (setFloat64 ctx mv vr p n i) (setFloat64 ctx' mv' vr p n i) := by
  have e := eqs h
  obtain ⟨la, lb, l, rfl⟩ := hc
  refine .notNull tf h ?_
  simp only
  split
  · exact takeBlock_rel h (by simp [e.n]) fun v => ⟨e.flags, e.m, e.n, e.r, by simp [e.n, e.A], e.B,
      e.C, e.D, e.x0, e.u, e.x, dirtyOut_set (by exact e.m) (by exact e.n) (by exact e.r) (by rfl)⟩
  · exact takeBlock_rel h (by simp [e.n, e.m]) fun v => ⟨e.flags, e.m, e.n, e.r, e.A,
      by simp [e.n, e.m, e.B], e.C, e.D, e.x0, e.u, e.x, dirtyOut_set (by exact e.m) (by exact e.n) (by exact e.r) (by rfl)⟩
  · exact takeBlock_rel h (by simp [e.n, e.r]) fun v => ⟨e.flags, e.m, e.n, e.r, e.A, e.B,
      by simp [e.n, e.r, e.C], e.D, e.x0, e.u, e.x, dirtyOut_set (by exact e.m) (by exact e.n) (by exact e.r) (by rfl)⟩
  · exact takeBlock_rel h (by simp [e.r, e.m]) fun v => ⟨e.flags, e.m, e.n, e.r, e.A, e.B, e.C,
      by simp [e.r, e.m, e.D], e.x0, e.u, e.x, dirtyOut_set (by exact e.m) (by exact e.n) (by exact e.r) (by rfl)⟩
  · exact takeBlock_rel h (by simp [e.n]) fun v => ⟨e.flags, e.m, e.n, e.r, e.A, e.B, e.C, e.D,
      by simp [e.n, e.x0], e.u, e.x, dirtyOut_set (by exact e.m) (by exact e.n) (by exact e.r) (by rfl)⟩
  · exact takeBlock_rel h (by simp [e.m]) fun v => ⟨e.flags, e.m, e.n, e.r, e.A, e.B, e.C, e.D, e.x0,
      by simp [e.m, e.u], e.x, dirtyOut_set (by exact e.m) (by exact e.n) (by exact e.r) (by rfl)⟩
  · refine .ite Iff.rfl (.fail tf h) ?_
    exact takeBlock_rel h (by simp [e.n]) fun v => ⟨e.flags, e.m, e.n, e.r, e.A, e.B, e.C, e.D, e.x0,
      e.u, by simp [e.n, e.x], dirtyOut_set (by exact e.m) (by exact e.n) (by exact e.r) (by rfl)⟩
  · exact .fail tf h

theorem get_getUInt64 {mv mv' : MV F (Data F)} {ctx ctx' : Ctx F} (vr p n i)
    (hc : CtxRel ctx ctx') (h : Same key mv mv') :
    MRel (Same key) (getUInt64 ctx mv vr p n i) (getUInt64 ctx' mv' vr p n i) := by
  have e := eqs h
  refine .notNull tf h ?_
  split
  · exact .putScalar tf h (by simp [e.m])
  · exact .putScalar tf h (by simp [e.n])
  · exact .putScalar tf h (by simp [e.r])
  · exact .fail tf h

theorem set_setUInt64 {mv mv' : MV F (Data F)} {ctx ctx' : Ctx F} (vr p n i)
    (hc : CtxRel ctx ctx') (h : Same key mv mv') :
    MRel (Same key) (setUInt64 ctx mv vr p n i) (setUInt64 ctx' mv' vr p n i) := by
  have e := eqs h
  obtain ⟨la, lb, l, rfl⟩ := hc
  refine .notNull tf h (.ite Iff.rfl (.fail tf h) (.bind fun v _ => ?_))
  simp only
  split
  · exact .ite Iff.rfl (.fail tf h) (.nValues tf h (.ret (Eqs.same
      ⟨e.flags, rfl, e.n, e.r, e.A, e.B, e.C, e.D, e.x0, e.u, e.x, dirtyOut_set (by exact rfl) (by exact e.n) (by exact e.r) (by rfl)⟩)))
  · exact .ite Iff.rfl (.fail tf h) (.nValues tf h (.ret (Eqs.same
      ⟨e.flags, e.m, rfl, e.r, e.A, e.B, e.C, e.D, e.x0, e.u, e.x, dirtyOut_set (by exact e.m) (by exact rfl) (by exact e.r) (by rfl)⟩)))
  · exact .ite Iff.rfl (.fail tf h) (.nValues tf h (.ret (Eqs.same
      ⟨e.flags, e.m, e.n, rfl, e.A, e.B, e.C, e.D, e.x0, e.u, e.x, dirtyOut_set (by exact e.m) (by exact e.n) (by exact rfl) (by rfl)⟩)))
  · exact .fail tf h

theorem checkNx_rel {mv mv' : MV F (Data F)} {ctx ctx' : Ctx F} {p : Ptr F} {n : Nat}
    (h : Same key mv mv') {k k' : MRes F (Data F) (Ptr F)} (hk : n = mv.data.n → MRel (Same key) k k') :
    MRel (Same key) (checkNx ctx mv p n k) (checkNx ctx' mv' p n k') := by
  simp only [checkNx, (eqs h).n]
  split
  · exact .fail tf h
  · next hn => exact hk (by simpa using hn)

theorem guarded_rel {β : Type} {mv mv' : MV F (Data F)} (h : Same key mv mv')
    {k k' : MRes F (Data F) β} (hk : MRel (Same key) k k') :
    MRel (Same key) (guarded mv.data k) (guarded mv'.data k') := by
  simp only [guarded, (eqs h).bounds]
  split
  · exact hk
  · exact .ub

theorem setX_eqs {mv mv' : MV F (Data F)} (e : Eqs mv mv') (l : List F) :
    Eqs { mv with data := { mv.data with x := fillVector mv.data.n l mv.data.x }, isDirtyValues := true }
      { mv' with data := { mv'.data with x := fillVector mv'.data.n l mv'.data.x }, isDirtyValues := true } :=
  ⟨e.flags, e.m, e.n, e.r, e.A, e.B, e.C, e.D, e.x0, e.u, by simp [e.n, e.x],
    dirtyOut_set (by exact e.m) (by exact e.n) (by exact e.r) (by rfl)⟩

theorem elems_length (n : Nat) (f : Nat → F) : (elems n f).length = n := by simp [elems]

/-- Writing a vector to scratch arrays. -/
theorem writeV {mv mv' : MV F (Data F)} (h : Same key mv mv') {l l' : List F}
    (hl : l.length = l'.length) {n : Nat} {vs : List F} (hv : vs.length = n) :
    VecRel (Same key) n l l' (writeN (some l) 0 vs >>- fun p => .ret (mv, .OK, p))
      (writeN (some l') 0 vs >>- fun p => .ret (mv', .OK, p)) := by
  refine Outcome.Rel.bind (writeN_rel hl (by simp)) ?_
  rintro p p' ⟨q, q', rfl, rfl, h3, h4, h5⟩
  exact ⟨h, rfl, q, q', rfl, rfl, h3, h4, fun _ => by simpa [hv] using h5⟩

theorem respects : Respects (F := F) model (Same key) where
  trace := tf
  dirty := fun b h =>
    have e := eqs h
    Eqs.same ⟨e.flags, e.m, e.n, e.r, e.A, e.B, e.C, e.D, e.x0, e.u, e.x,
      dirtyOut_set (by exact e.m) (by exact e.n) (by exact e.r) (by rfl)⟩
  term := fun h => congrArg (fun f => f.2.1) (eqs h).flags
  netd := fun h => congrArg (fun f => f.2.2.1) (eqs h).flags
  net := fun h => congrArg (fun f => f.2.2.2.1) (eqs h).flags
  numX := fun h => (eqs h).n
  numZ := fun _ => rfl
  info := fun _ h => by cases h
  start := fun _ _ _ h =>
    have e := eqs h
    Eqs.same ⟨e.flags, rfl, rfl, rfl, rfl, rfl, rfl, rfl, e.x0, rfl, rfl, rfl⟩
  refresh := by
    intro mv mv' ctx ctx' hc h
    have e := eqs h
    simp only [refreshM, model]
    by_cases hb : inBounds mv.data = true
    · have hb' := e.bounds.trans hb
      have hs : ∀ b b', Same key { calcValues mv with isDirtyValues := b }
          { calcValues mv' with isDirtyValues := b' } := by
        intro b b'
        refine Eqs.same ⟨e.flags, e.m, e.n, e.r, e.A, e.B, e.C, e.D, e.x0, e.u, e.x, ?_⟩
        have h1 : inBounds (calcValues mv).data = true := hb
        have h2 : inBounds (calcValues mv').data = true := hb'
        simp [dirtyOut, h1, h2]
      have hs1 : ∀ b, Same key { calcValues mv with isDirtyValues := b } mv' := by
        intro b
        refine Eqs.same ⟨e.flags, e.m, e.n, e.r, e.A, e.B, e.C, e.D, e.x0, e.u, e.x, ?_⟩
        have h1 : inBounds (calcValues mv).data = true := hb
        simp [dirtyOut, h1, hb']
      have hs2 : ∀ b, Same key mv { calcValues mv' with isDirtyValues := b } := by
        intro b
        refine Eqs.same ⟨e.flags, e.m, e.n, e.r, e.A, e.B, e.C, e.D, e.x0, e.u, e.x, ?_⟩
        have h2 : inBounds (calcValues mv').data = true := hb'
        simp [dirtyOut, hb, h2]
      simp only [calculateValues, guarded, hb, hb', if_true, Outcome.ret_bind]
      split <;> split
      · exact .ret (hs false false)
      · exact .ret (hs1 false)
      · exact .ret (hs2 false)
      · exact .ret h
    · have hb' : ¬ inBounds mv'.data = true := fun h' => hb (e.bounds.symm.trans h')
      have hd : mv'.isDirtyValues = mv.isDirtyValues := by
        have := e.out; simpa [dirtyOut, hb, hb'] using this
      simp only [calculateValues, guarded, hb, hb', hd]
      split
      · exact .ub
      · exact .ret h
  get := by
    intro mv mv' ctx ctx' t vr p n i hc h
    cases t
    case float64 => exact get_getFloat64 vr p n i hc h
    case uint64 => exact get_getUInt64 vr p n i hc h
    all_goals exact .fail tf h
  set := by
    intro mv mv' ctx ctx' t vr p n i hc h
    cases t
    case float64 => exact set_setFloat64 vr p n i hc h
    case uint64 => exact set_setUInt64 vr p n i hc h
    all_goals exact .fail tf h
  event := by
    intro mv mv' ctx ctx' eu he hc h
    cases he
    have e := eqs h
    have hf := e.flags
    simp only [MV.flags, Prod.mk.injEq] at hf
    refine ⟨Eqs.same ⟨by simp [MV.flags, hf], e.m, e.n, e.r, e.A, e.B, e.C, e.D, e.x0, e.u, e.x,
      e.out⟩, rfl, fun _ => by simp [MV.eventInfo, hf]⟩
  getStates := fun p n hc h =>
    have e := eqs h
    .notNull tf h (checkNx_rel h fun _ => guarded_rel h (by
      rw [e.n, e.x]; exact .bind fun _ _ => .ret h))
  nominals := fun p n hc h =>
    have e := eqs h
    .notNull tf h (checkNx_rel h fun _ => by
      rw [e.n]; exact .bind fun _ _ => .ret h)
  setStates := fun p n hc h =>
    have e := eqs h
    .notNull tf h (checkNx_rel h fun _ => guarded_rel h (by
      have := fun l => (setX_eqs e l).same
      rw [e.n] at this ⊢
      exact .bind fun l _ => .ret (this l)))
  deriv := by
    intro mv mv' ctx ctx' p n hc h
    have e := eqs h
    refine .notNull tf h (checkNx_rel h fun _ => calc_rel h ?_)
    have h1 : (calcValues mv).data.n = mv.data.n := rfl
    have h2 : (calcValues mv').data.n = mv'.data.n := rfl
    simp only [h1, h2, calc_der e]
    exact .bind fun _ _ => .ret (calc_eqs e).same
  indicators := fun _ _ _ h => .vecStub tf h
  getStatesV := by
    intro mv mv' ctx ctx' l l' n hc h hl
    have e := eqs h
    simp only [model, assertNotNull, Option.isNone_some, Bool.false_eq_true, if_false, checkNx, e.n]
    split
    · exact ⟨tf.log h _, rfl, l, l', rfl, rfl, rfl, hl.symm, fun h => h.elim (fun h => by cases h) id⟩
    · next hn =>
      simp only [guarded, e.bounds]
      split
      · rw [e.x]
        exact writeV h hl (by simp [elems_length]; omega)
      · trivial
  derivV := by
    intro mv mv' ctx ctx' l l' n hc h hl
    have e := eqs h
    simp only [model, assertNotNull, Option.isNone_some, Bool.false_eq_true, if_false, checkNx, e.n]
    split
    · exact ⟨tf.log h _, rfl, l, l', rfl, rfl, rfl, hl.symm, fun h => h.elim (fun h => by cases h) id⟩
    · next hn =>
      simp only [calculateValues, guarded, e.bounds]
      split
      · simp only [Outcome.ret_bind]
        have := calc_der e
        rw [show (calcValues mv').data.n = mv'.data.n from rfl, this]
        have h1 : (calcValues mv).data.n = mv.data.n := rfl
        exact writeV (calc_eqs e).same hl (by rw [elems_length, h1]; omega)
      · trivial
  indicatorsV := fun _ _ _ _ h hl => .stub tf h hl
  setStatesV := by
    intro mv mv' ctx ctx' l l' n hc h hl
    have e := eqs h
    simp only [model, assertNotNull, Option.isNone_some, Bool.false_eq_true, if_false, checkNx, e.n]
    split
    · exact ⟨tf.log h _, rfl⟩
    · next hn =>
      simp only [ne_eq, Decidable.not_not] at hn
      subst hn
      simp only [guarded, e.bounds]
      split
      · rw [readN_rel (l := l) (l' := l') (by simpa using hl)]
        refine Outcome.Rel.same fun v _ => ⟨?_, rfl⟩
        have := (setX_eqs e v).same
        simp only [e.n] at this
        exact this
      · trivial
  indicatorsOK := fun h => by cases h
  partialDeriv := fun _ _ _ _ h => .fail tf h
  outDeriv := fun _ _ _ h => by cases h
  activate := fun _ _ h => .ret h
  getClock := fun _ _ _ h => .ret h
  getInterval := fun _ _ _ _ h => .ret h
  partition := fun _ _ _ h => .ret h
end StateSpace

end Verif
