import Verif.Lemmas.RelRoberts
import Verif.Lemmas.NoSet
import Verif.Lemmas.ReadRel

/-!
Observational equivalence of Roberts instances whose parameter `dae` is not set: then `y3` matters only if `dae` is true,
because otherwise it is recomputed before it is read.
-/

set_option linter.unusedSectionVars false
set_option linter.unusedSimpArgs false
set_option linter.unusedVariables false

namespace Verif

namespace Roberts.Fixed
variable {F : Type} [Arith F]

/-- Everything but the values that are recomputed before they are read as long as `dae` is not set. -/
def key (mv : MV F (Data F)) := (mv.flags, mv.moreFlags, mv.data.dae, mv.data.y1, mv.data.y2,
  cond mv.data.dae (some mv.data.y3) none, mv.data.g1, mv.data.g2)

theorem get_getFloat64 {mv mv' : MV F (Data F)} {ctx ctx' : Ctx F} (vr p n i) (hc : CtxRel ctx ctx')
    (h : Same key mv mv') : MRel (Same key) (getFloat64 ctx mv vr p n i) (getFloat64 ctx' mv' vr p n i) := by
  obtain ⟨a1, a2, a3, a4, a5, a6, a7, a8, ⟨d_dae, d_y1, d_der_y1, d_y2, d_der_y2, d_y3, d_r, d_g1, d_g2⟩, a9⟩ := mv
  obtain ⟨b1, b2, b3, b4, b5, b6, b7, b8, ⟨e_dae, e_y1, e_der_y1, e_y2, e_der_y2, e_y3, e_r, e_g1, e_g2⟩, b9⟩ := mv'
  obtain ⟨la, lb, l, rfl⟩ := hc
  simp only [Same, key, MV.flags, MV.moreFlags, Prod.mk.injEq] at h
  obtain ⟨⟨rfl, rfl, rfl, rfl, rfl⟩, ⟨rfl, rfl⟩, rfl, rfl, rfl, h3, rfl, rfl⟩ := h
  simp only [getFloat64]
  cases d_dae <;> simp only [cond_true, cond_false, Option.some.injEq] at h3 <;> (try subst h3) <;> mrel

theorem get_getBoolean {mv mv' : MV F (Data F)} {ctx ctx' : Ctx F} (vr p n i) (hc : CtxRel ctx ctx')
    (h : Same key mv mv') : MRel (Same key) (getBoolean ctx mv vr p n i) (getBoolean ctx' mv' vr p n i) := by
  obtain ⟨a1, a2, a3, a4, a5, a6, a7, a8, ⟨d_dae, d_y1, d_der_y1, d_y2, d_der_y2, d_y3, d_r, d_g1, d_g2⟩, a9⟩ := mv
  obtain ⟨b1, b2, b3, b4, b5, b6, b7, b8, ⟨e_dae, e_y1, e_der_y1, e_y2, e_der_y2, e_y3, e_r, e_g1, e_g2⟩, b9⟩ := mv'
  obtain ⟨la, lb, l, rfl⟩ := hc
  simp only [Same, key, MV.flags, MV.moreFlags, Prod.mk.injEq] at h
  obtain ⟨⟨rfl, rfl, rfl, rfl, rfl⟩, ⟨rfl, rfl⟩, rfl, rfl, rfl, h3, rfl, rfl⟩ := h
  simp only [getBoolean]
  cases d_dae <;> simp only [cond_true, cond_false, Option.some.injEq] at h3 <;> (try subst h3) <;> mrel

theorem set_setFloat64 {mv mv' : MV F (Data F)} {ctx ctx' : Ctx F} (vr p n i) (hc : CtxRel ctx ctx')
    (h : Same key mv mv') : MRel (Same key) (setFloat64 ctx mv vr p n i) (setFloat64 ctx' mv' vr p n i) := by
  obtain ⟨a1, a2, a3, a4, a5, a6, a7, a8, ⟨d_dae, d_y1, d_der_y1, d_y2, d_der_y2, d_y3, d_r, d_g1, d_g2⟩, a9⟩ := mv
  obtain ⟨b1, b2, b3, b4, b5, b6, b7, b8, ⟨e_dae, e_y1, e_der_y1, e_y2, e_der_y2, e_y3, e_r, e_g1, e_g2⟩, b9⟩ := mv'
  obtain ⟨la, lb, l, rfl⟩ := hc
  simp only [Same, key, MV.flags, MV.moreFlags, Prod.mk.injEq] at h
  obtain ⟨⟨rfl, rfl, rfl, rfl, rfl⟩, ⟨rfl, rfl⟩, rfl, rfl, rfl, h3, rfl, rfl⟩ := h
  simp only [setFloat64]
  cases d_dae <;> simp only [cond_true, cond_false, Option.some.injEq] at h3 <;> (try subst h3) <;> mrel

theorem tf : TraceFree (F := F) (Same (D := (Data F)) key) := fun _ _ _ _ h => h

theorem respects : Respects (F := F) (model.noSet .boolean) (Same key) where
  trace := tf
  dirty := fun _ h => h
  term := fun h => by
    simp only [Same, key, MV.flags, MV.moreFlags, Prod.mk.injEq] at h; simp [h]
  netd := fun h => by
    simp only [Same, key, MV.flags, MV.moreFlags, Prod.mk.injEq] at h; simp [h]
  net := fun h => by
    simp only [Same, key, MV.flags, MV.moreFlags, Prod.mk.injEq] at h; simp [h]
  numX := fun _ => rfl
  numZ := fun _ => rfl
  info := fun h _ => by
    simp only [Same, key, MV.flags, MV.moreFlags, Prod.mk.injEq] at h; simp [h, MV.eventInfo]
  start := by
    rintro ⟨a1, a2, a3, a4, a5, a6, a7, a8, ⟨d_dae, d_y1, d_der_y1, d_y2, d_der_y2, d_y3, d_r, d_g1, d_g2⟩, a9⟩
      ⟨b1, b2, b3, b4, b5, b6, b7, b8, ⟨e_dae, e_y1, e_der_y1, e_y2, e_der_y2, e_y3, e_r, e_g1, e_g2⟩, b9⟩ ctx ctx' ⟨la, lb, l, rfl⟩ h
    simp only [Same, key, MV.flags, MV.moreFlags, Prod.mk.injEq] at h
    obtain ⟨⟨rfl, rfl, rfl, rfl, rfl⟩, ⟨rfl, rfl⟩, rfl, rfl, rfl, h3, rfl, rfl⟩ := h
    rfl
  refresh := by
    rintro ⟨a1, a2, a3, a4, a5, a6, a7, a8, ⟨d_dae, d_y1, d_der_y1, d_y2, d_der_y2, d_y3, d_r, d_g1, d_g2⟩, a9⟩
      ⟨b1, b2, b3, b4, b5, b6, b7, b8, ⟨e_dae, e_y1, e_der_y1, e_y2, e_der_y2, e_y3, e_r, e_g1, e_g2⟩, b9⟩ ctx ctx' ⟨la, lb, l, rfl⟩ h
    simp only [Same, key, MV.flags, MV.moreFlags, Prod.mk.injEq] at h
    obtain ⟨⟨rfl, rfl, rfl, rfl, rfl⟩, ⟨rfl, rfl⟩, rfl, rfl, rfl, h3, rfl, rfl⟩ := h
    simp only [refreshM, model, Model.noSet]
    cases d_dae <;> simp only [cond_true, cond_false, Option.some.injEq] at h3 <;> (try subst h3) <;> cases a8 <;> cases b8 <;> exact ⟨rfl, rfl⟩
  get := by
    intro mv mv' ctx ctx' t vr p n i hc h
    cases t
    case float64 => exact get_getFloat64 vr p n i hc h
    case boolean => exact get_getBoolean vr p n i hc h
    all_goals exact .fail tf h
  set := by
    intro mv mv' ctx ctx' t vr p n i hc h
    cases t
    case float64 => exact set_setFloat64 vr p n i hc h
    case boolean => exact .ub
    all_goals exact .fail tf h
  event := fun h => by cases h
  getStates := by
    rintro ⟨a1, a2, a3, a4, a5, a6, a7, a8, ⟨d_dae, d_y1, d_der_y1, d_y2, d_der_y2, d_y3, d_r, d_g1, d_g2⟩, a9⟩
      ⟨b1, b2, b3, b4, b5, b6, b7, b8, ⟨e_dae, e_y1, e_der_y1, e_y2, e_der_y2, e_y3, e_r, e_g1, e_g2⟩, b9⟩ ctx ctx' p n ⟨la, lb, l, rfl⟩ h
    simp only [Same, key, MV.flags, MV.moreFlags, Prod.mk.injEq] at h
    obtain ⟨⟨rfl, rfl, rfl, rfl, rfl⟩, ⟨rfl, rfl⟩, rfl, rfl, rfl, h3, rfl, rfl⟩ := h
    cases d_dae <;> simp only [cond_true, cond_false, Option.some.injEq] at h3 <;> (try subst h3) <;> (refine MRel.putVector tf ?_ ?_ ?_ <;> rfl)
  nominals := by
    rintro ⟨a1, a2, a3, a4, a5, a6, a7, a8, ⟨d_dae, d_y1, d_der_y1, d_y2, d_der_y2, d_y3, d_r, d_g1, d_g2⟩, a9⟩
      ⟨b1, b2, b3, b4, b5, b6, b7, b8, ⟨e_dae, e_y1, e_der_y1, e_y2, e_der_y2, e_y3, e_r, e_g1, e_g2⟩, b9⟩ ctx ctx' p n ⟨la, lb, l, rfl⟩ h
    simp only [Same, key, MV.flags, MV.moreFlags, Prod.mk.injEq] at h
    obtain ⟨⟨rfl, rfl, rfl, rfl, rfl⟩, ⟨rfl, rfl⟩, rfl, rfl, rfl, h3, rfl, rfl⟩ := h
    cases d_dae <;> simp only [cond_true, cond_false, Option.some.injEq] at h3 <;> (try subst h3) <;> (refine MRel.putVector tf ?_ ?_ ?_ <;> rfl)
  setStates := by
    rintro ⟨a1, a2, a3, a4, a5, a6, a7, a8, ⟨d_dae, d_y1, d_der_y1, d_y2, d_der_y2, d_y3, d_r, d_g1, d_g2⟩, a9⟩
      ⟨b1, b2, b3, b4, b5, b6, b7, b8, ⟨e_dae, e_y1, e_der_y1, e_y2, e_der_y2, e_y3, e_r, e_g1, e_g2⟩, b9⟩ ctx ctx' p n ⟨la, lb, l, rfl⟩ h
    simp only [Same, key, MV.flags, MV.moreFlags, Prod.mk.injEq] at h
    obtain ⟨⟨rfl, rfl, rfl, rfl, rfl⟩, ⟨rfl, rfl⟩, rfl, rfl, rfl, h3, rfl, rfl⟩ := h
    cases d_dae <;> simp only [cond_true, cond_false, Option.some.injEq] at h3 <;> (try subst h3) <;> exact MRel.takeVector tf (by exact rfl) (by exact fun _ => rfl)
  deriv := by
    rintro ⟨a1, a2, a3, a4, a5, a6, a7, a8, ⟨d_dae, d_y1, d_der_y1, d_y2, d_der_y2, d_y3, d_r, d_g1, d_g2⟩, a9⟩
      ⟨b1, b2, b3, b4, b5, b6, b7, b8, ⟨e_dae, e_y1, e_der_y1, e_y2, e_der_y2, e_y3, e_r, e_g1, e_g2⟩, b9⟩ ctx ctx' p n ⟨la, lb, l, rfl⟩ h
    simp only [Same, key, MV.flags, MV.moreFlags, Prod.mk.injEq] at h
    obtain ⟨⟨rfl, rfl, rfl, rfl, rfl⟩, ⟨rfl, rfl⟩, rfl, rfl, rfl, h3, rfl, rfl⟩ := h
    cases d_dae <;> simp only [cond_true, cond_false, Option.some.injEq] at h3 <;> (try subst h3) <;> (refine MRel.putVector tf ?_ ?_ ?_ <;> rfl)
  indicators := by
    rintro ⟨a1, a2, a3, a4, a5, a6, a7, a8, ⟨d_dae, d_y1, d_der_y1, d_y2, d_der_y2, d_y3, d_r, d_g1, d_g2⟩, a9⟩
      ⟨b1, b2, b3, b4, b5, b6, b7, b8, ⟨e_dae, e_y1, e_der_y1, e_y2, e_der_y2, e_y3, e_r, e_g1, e_g2⟩, b9⟩ ctx ctx' p n ⟨la, lb, l, rfl⟩ h
    simp only [Same, key, MV.flags, MV.moreFlags, Prod.mk.injEq] at h
    obtain ⟨⟨rfl, rfl, rfl, rfl, rfl⟩, ⟨rfl, rfl⟩, rfl, rfl, rfl, h3, rfl, rfl⟩ := h
    cases d_dae <;> simp only [cond_true, cond_false, Option.some.injEq] at h3 <;> (try subst h3) <;> (refine MRel.putVector tf ?_ ?_ ?_ <;> rfl)
  getStatesV := by
    rintro ⟨a1, a2, a3, a4, a5, a6, a7, a8, ⟨d_dae, d_y1, d_der_y1, d_y2, d_der_y2, d_y3, d_r, d_g1, d_g2⟩, a9⟩
      ⟨b1, b2, b3, b4, b5, b6, b7, b8, ⟨e_dae, e_y1, e_der_y1, e_y2, e_der_y2, e_y3, e_r, e_g1, e_g2⟩, b9⟩ ctx ctx' p p' n ⟨la, lb, l, rfl⟩ h hl
    simp only [Same, key, MV.flags, MV.moreFlags, Prod.mk.injEq] at h
    obtain ⟨⟨rfl, rfl, rfl, rfl, rfl⟩, ⟨rfl, rfl⟩, rfl, rfl, rfl, h3, rfl, rfl⟩ := h
    cases d_dae <;> simp only [cond_true, cond_false, Option.some.injEq] at h3 <;> (try subst h3) <;> (refine VecRel.putVector tf ?_ ?_ hl ?_ <;> rfl)
  derivV := by
    rintro ⟨a1, a2, a3, a4, a5, a6, a7, a8, ⟨d_dae, d_y1, d_der_y1, d_y2, d_der_y2, d_y3, d_r, d_g1, d_g2⟩, a9⟩
      ⟨b1, b2, b3, b4, b5, b6, b7, b8, ⟨e_dae, e_y1, e_der_y1, e_y2, e_der_y2, e_y3, e_r, e_g1, e_g2⟩, b9⟩ ctx ctx' p p' n ⟨la, lb, l, rfl⟩ h hl
    simp only [Same, key, MV.flags, MV.moreFlags, Prod.mk.injEq] at h
    obtain ⟨⟨rfl, rfl, rfl, rfl, rfl⟩, ⟨rfl, rfl⟩, rfl, rfl, rfl, h3, rfl, rfl⟩ := h
    cases d_dae <;> simp only [cond_true, cond_false, Option.some.injEq] at h3 <;> (try subst h3) <;> (refine VecRel.putVector tf ?_ ?_ hl ?_ <;> rfl)
  indicatorsV := by
    rintro ⟨a1, a2, a3, a4, a5, a6, a7, a8, ⟨d_dae, d_y1, d_der_y1, d_y2, d_der_y2, d_y3, d_r, d_g1, d_g2⟩, a9⟩
      ⟨b1, b2, b3, b4, b5, b6, b7, b8, ⟨e_dae, e_y1, e_der_y1, e_y2, e_der_y2, e_y3, e_r, e_g1, e_g2⟩, b9⟩ ctx ctx' p p' n ⟨la, lb, l, rfl⟩ h hl
    simp only [Same, key, MV.flags, MV.moreFlags, Prod.mk.injEq] at h
    obtain ⟨⟨rfl, rfl, rfl, rfl, rfl⟩, ⟨rfl, rfl⟩, rfl, rfl, rfl, h3, rfl, rfl⟩ := h
    cases d_dae <;> simp only [cond_true, cond_false, Option.some.injEq] at h3 <;> (try subst h3) <;> (refine VecRel.putVector tf ?_ ?_ hl ?_ <;> rfl)
  setStatesV := by
    rintro ⟨a1, a2, a3, a4, a5, a6, a7, a8, ⟨d_dae, d_y1, d_der_y1, d_y2, d_der_y2, d_y3, d_r, d_g1, d_g2⟩, a9⟩
      ⟨b1, b2, b3, b4, b5, b6, b7, b8, ⟨e_dae, e_y1, e_der_y1, e_y2, e_der_y2, e_y3, e_r, e_g1, e_g2⟩, b9⟩ ctx ctx' p p' n ⟨la, lb, l, rfl⟩ h hl
    simp only [Same, key, MV.flags, MV.moreFlags, Prod.mk.injEq] at h
    obtain ⟨⟨rfl, rfl, rfl, rfl, rfl⟩, ⟨rfl, rfl⟩, rfl, rfl, rfl, h3, rfl, rfl⟩ := h
    cases d_dae <;> simp only [cond_true, cond_false, Option.some.injEq] at h3 <;> (try subst h3) <;> exact SetRel.takeVector tf (by exact rfl) hl (by exact fun _ => rfl)
  indicatorsOK := by
    rintro - ctx mv l hl
    match l, hl with
    | [a, b], _ => exact ⟨_, _, rfl⟩
  partialDeriv := by
    rintro ⟨a1, a2, a3, a4, a5, a6, a7, a8, ⟨d_dae, d_y1, d_der_y1, d_y2, d_der_y2, d_y3, d_r, d_g1, d_g2⟩, a9⟩
      ⟨b1, b2, b3, b4, b5, b6, b7, b8, ⟨e_dae, e_y1, e_der_y1, e_y2, e_der_y2, e_y3, e_r, e_g1, e_g2⟩, b9⟩ ctx ctx' u k o ⟨la, lb, l, rfl⟩ h
    simp only [Same, key, MV.flags, MV.moreFlags, Prod.mk.injEq] at h
    obtain ⟨⟨rfl, rfl, rfl, rfl, rfl⟩, ⟨rfl, rfl⟩, rfl, rfl, rfl, h3, rfl, rfl⟩ := h
    cases d_dae <;> simp only [cond_true, cond_false, Option.some.injEq] at h3 <;> (try subst h3) <;> exact .ret (by exact rfl)
  outDeriv := fun _ _ _ h => by cases h
  activate := fun _ _ h => .ret h
  getClock := fun _ _ _ h => .ret h
  getInterval := fun _ _ _ _ h => .ret h
  partition := fun _ _ _ h => .ret h

theorem passes : (Roberts.model (F := F)).Passes (fun _ => True) (Same key) := by
  refine .ofKey (RefFMU3.eff .roberts) (k := Roberts.ode.calc') Roberts.reads ?_
  rintro mv mv' h1 h2 h3
  unfold key
  rw [h2, h3]
  clear h2 h3
  obtain ⟨a1, a2, a3, a4, a5, a6, a7, a8, ⟨d_dae, d_y1, d_der_y1, d_y2, d_der_y2, d_y3, d_r, d_g1, d_g2⟩, a9⟩ := mv
  obtain ⟨b1, b2, b3, b4, b5, b6, b7, b8, ⟨e_dae, e_y1, e_der_y1, e_y2, e_der_y2, e_y3, e_r, e_g1, e_g2⟩, b9⟩ := mv'
  cases d_dae <;> cases e_dae <;> simp [ode, calcData] at h1 <;> simp [h1]

variable [HasInf F]

/-- Worlds equivalent for every use are equivalent for uses without `dae`. -/
theorem weaken {w w' : FMI3.World F (Data F)}
    (h : FMI3.WRel (SRel Roberts.model (Same Roberts.key) Tight.full) (fun _ => True) (fun _ => True) w w') :
    FMI3.WRel (SRel Roberts.model (Same key) Tight.full) (fun _ => True) (fun _ => True) w w' := by
  have hE : ∀ {mv mv' : MV F (Data F)}, Same Roberts.key mv mv' → Same key mv mv' := by
    intro mv mv' h
    simp only [Same, Roberts.key, Prod.mk.injEq] at h
    simp [Same, key, h]
  have hS : ∀ {c c' : Comp F (Data F)}, SRel Roberts.model (Same Roberts.key) Tight.full c c' →
      SRel Roberts.model (Same key) Tight.full c c' := fun h =>
    ⟨h.ctx, hE h.mv, h.start, h.steps, h.early, h.evm, h.lens, h.lens', h.times, h.nx, h.nz⟩
  exact ⟨hS h.inst, fun i hi => (h.slots i hi).mono fun _ _ => hS,
    fun i hi => (h.bufs i hi).mono fun _ _ h => ⟨h.1, h.2.mono fun _ _ => hS⟩⟩

theorem read_shown {t : IType} {w w' : FMI3.World F (Data F)} (hw : FMI3.Reachable Roberts.model t w) {op : FMI3.Op F}
    (hop : FMI3.Spec.asks op.fn = true) {fuel : Nat} {o} (h : FMI3.step Roberts.model fuel w op = .ret (w', .OK, o)) (fuel' : Nat)
    (later : List (FMI3.Op F)) (hl : ∀ op ∈ later, op.fn ≠ .set .boolean) :
    (FMI3.run Roberts.model fuel' w' later).shown = (FMI3.run Roberts.model fuel' w later).shown := by
  have h0 := weaken (hw.self Roberts.respects (Same.refl _))
  have h1 := FMI3.read_rel (RefFMU3.eff .roberts).okOrError tf passes trivial h0 hop h
  have hL : ∀ {c : Comp F (Data F)}, c.Lens Roberts.model → c.Lens (Roberts.model.noSet .boolean) := fun l =>
    ⟨l.z, l.prez, l.x, l.dx⟩
  have hS : ∀ {c c' : Comp F (Data F)}, SRel Roberts.model (Same key) Tight.full c c' →
      SRel (Roberts.model.noSet .boolean) (Same key) Tight.full c c' := fun h =>
    ⟨h.ctx, h.mv, h.start, h.steps, h.early, h.evm, hL h.lens, hL h.lens', h.times, h.nx, h.nz⟩
  have h2 : FMI3.WRel (SRel (Roberts.model.noSet .boolean) (Same key) Tight.full) (fun _ => True) (fun _ => True) w w' :=
    ⟨hS h1.inst, fun i hi => (h1.slots i hi).mono fun _ _ => hS,
      fun i hi => (h1.bufs i hi).mono fun _ _ h => ⟨h.1, h.2.mono fun _ _ => hS⟩⟩
  have h3 := shown_of_rel (FMI3.run_rel (fuel := fuel') respects later h2 fun _ _ => ⟨fun _ _ => trivial, fun _ _ => trivial⟩)
  rw [FMI3.noSet_run _ hl, FMI3.noSet_run _ hl] at h3
  exact h3.symm

end Roberts.Fixed

end Verif
