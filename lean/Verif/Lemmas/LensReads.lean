import Verif.Lemmas.LensFeed

/-! # Reading and setting variables through the API, by lenses -/

set_option linter.unusedSectionVars false

namespace Verif
variable {F D : Type} [Arith F] [HasInf F] {m : Model F D} {R I : List (VType × Nat)}

namespace Lens

theorem loop (l : Lens m R) {t : VType} {r : Nat} (h : (t, r) ∈ R) (c : Comp F D) (x : t.Val F) :
    ∃ c', getLoop m t (some [r]) 1 1 0 c .OK (some [x]) 0 =
      .ret (c', .OK, (some [l.val t r c.ctx.time c.mv.data], 1)) := by
  obtain ⟨mv', e⟩ := l.get t r h c.ctx c.mv x
  have : Ptr.read (some [r]) 0 = .ret r := rfl
  refine ⟨{ c with mv := mv' }, ?_⟩
  rw [getLoop, this, Outcome.ret_bind, e]
  rfl

theorem refreshed (l : Lens m R) {β : Type} {c : Comp F D} {b : β} {k : Comp F D → Status → Res F D β} :
    ∃ c' : Comp F D, c'.ctx = c.ctx ∧ (∀ t r τ, l.val t r τ c'.mv.data = l.val t r τ c.mv.data) ∧
      refresh m .OK c b k = k c' .OK := by
  unfold refresh
  split
  · obtain ⟨mv', e, hd⟩ := l.«calc» c.ctx c.mv
    exact ⟨({ c with mv := mv' } : Comp F D).setDirty false, rfl, fun t r τ => by
      show l.val t r τ mv'.data = _
      rw [hd, l.upd_val], by rw [e]; rfl⟩
  · exact ⟨c, rfl, fun _ _ _ => rfl, rfl⟩

theorem getVariables (l : Lens m R) {t : VType} {r : Nat} (h : (t, r) ∈ R) (c : Comp F D) (x : t.Val F) :
    ∃ c', FMI2.getVariables m t (some [r]) 1 (some [x]) c =
      .ret (c', .OK, some [l.val t r c.ctx.time c.mv.data]) := by
  unfold FMI2.getVariables
  simp only [assertNonNull, Option.isNone_some, Bool.false_eq_true, if_false, Nat.one_ne_zero]
  obtain ⟨c', h1, h2, h3⟩ := l.refreshed (β := Ptr (t.Val F)) (c := c) (b := some [x]) (k := fun c st =>
    getLoop m t (some [r]) 1 1 0 c st (some [x]) 0 >>- fun (c, st, v, _) => .ret (c, st, v))
  obtain ⟨c'', h4⟩ := l.loop h c' x
  rw [h1, h2] at h4
  refine ⟨c'', ?_⟩
  refine h3.trans ?_
  rw [h4]
  rfl

theorem getBooleanLoop (l : Lens m R) {r : Nat} (h : (.boolean, r) ∈ R) (c : Comp F D) (x : Int) :
    ∃ c', FMI2.getBooleanLoop m (some [r]) 1 1 0 c .OK (some [x]) =
      .ret (c', .OK, some [if l.val .boolean r c.ctx.time c.mv.data then 1 else 0]) := by
  obtain ⟨mv', e⟩ := l.get .boolean r h c.ctx c.mv false
  have : Ptr.read (some [r]) 0 = .ret r := rfl
  refine ⟨{ c with mv := mv' }, ?_⟩
  rw [FMI2.getBooleanLoop, this, Outcome.ret_bind, e]
  rfl

end Lens

namespace FMI2

/-- Whether a function of FMI 2.0 reads variables of the type. -/
def hasType (t : VType) : Prop := t = .float64 ∨ t = .int32 ∨ t = .boolean ∨ t = .string

theorem reads_lens (l : Lens m R) {t : VType} {r : Nat} (h : (t, r) ∈ R) (ht : hasType t) {w : World F D}
    (hs : w.inst.ctx.state ∈ Spec.allowedIn .getReal) :
    Reads m w t r (l.val t r w.inst.ctx.time w.inst.mv.data) := by
  have ha : allowed w.inst.ctx MASK_GetReal = true := (allowed_fn w.inst.ctx .getReal).2 hs
  rcases ht with rfl | rfl | rfl | rfl <;> intro fuel x
  · obtain ⟨c', e⟩ := l.getVariables h w.inst x
    exact ⟨{ w with inst := c' }, by simp only [step, World.run, getReal, begin, beginFunction, if_pos ha, e]; rfl⟩
  · obtain ⟨c', e⟩ := l.getVariables h w.inst x
    exact ⟨{ w with inst := c' }, by simp only [step, World.run, getInteger, begin, beginFunction, if_pos ha, e]; rfl⟩
  · obtain ⟨c', e⟩ := l.getBooleanLoop h w.inst x
    exact ⟨{ w with inst := c' }, by simp only [step, World.run, getBoolean, begin, beginFunction, if_pos ha, e]; rfl⟩
  · obtain ⟨c', e⟩ := l.getVariables h w.inst x
    exact ⟨{ w with inst := c' }, by simp only [step, World.run, getString, begin, beginFunction, if_pos ha, e]; rfl⟩

theorem Reads.hasType {t : VType} {r : Nat} {v : t.Val F} {w : World F D} (h : Reads m w t r v) : hasType t := by
  cases t <;> first | exact False.elim h | simp [FMI2.hasType]

theorem Reads.unique {t : VType} {r : Nat} {a b : t.Val F} {w : World F D} (h1 : Reads m w t r a)
    (h2 : Reads m w t r b) : a = b := by
  rcases h1.hasType with rfl | rfl | rfl | rfl
  · exact ReadsReal.unique h1 h2
  · exact ReadsInteger.unique h1 h2
  · obtain ⟨w1, e1⟩ := h1 0 0
    obtain ⟨w2, e2⟩ := h2 0 0
    rw [e1] at e2
    simp only [Outcome.ret.injEq, Prod.mk.injEq, Out.ints.injEq, Option.some.injEq, List.cons.injEq] at e2
    revert e2
    cases a <;> cases b <;> simp
  · obtain ⟨w1, e1⟩ := h1 0 none
    obtain ⟨w2, e2⟩ := h2 0 none
    rw [e1] at e2
    cases e2
    rfl

/-- A variable can be read only in the modes in which reading is allowed. -/
theorem Reads.allowed {t : VType} {r : Nat} {v : t.Val F} {w : World F D} (h : Reads m w t r v) :
    w.inst.ctx.state ∈ Spec.allowedIn .getReal := by
  apply (allowed_fn w.inst.ctx .getReal).1
  show FMI2.allowed w.inst.ctx MASK_GetReal = true
  cases ha : FMI2.allowed w.inst.ctx MASK_GetReal
  · exfalso
    rcases h.hasType with rfl | rfl | rfl | rfl
    · obtain ⟨w', e⟩ := h 0 (Arith.lit 0)
      simp [step, World.run, getReal, begin, beginFunction, ha] at e
    · obtain ⟨w', e⟩ := h 0 0
      simp [step, World.run, getInteger, begin, beginFunction, ha] at e
    · obtain ⟨w', e⟩ := h 0 0
      simp [step, World.run, getBoolean, begin, beginFunction, ha] at e
    · obtain ⟨w', e⟩ := h 0 none
      simp [step, World.run, getReal, getInteger, getBoolean, getString, begin, beginFunction, ha] at e
  · rfl

end FMI2

namespace FMI3

theorem reads_lens (l : Lens m R) {t : VType} {r : Nat} (h : (t, r) ∈ R) {w : World F D}
    (hs : w.inst.ctx.state ∈ Spec.allowedIn (.get t)) :
    Reads m w t r (l.val t r w.inst.ctx.time w.inst.mv.data) := by
  intro fuel x
  have ha : allowed w.inst.ctx MASK_Get = true := (allowed_fn w.inst.ctx (.get t)).2 hs
  simp only [step, World.run, getVars, begin, beginFunction, if_pos ha, assertNonNull, Option.isNone_some, Bool.false_eq_true,
    if_false, Nat.one_ne_zero, gt_iff_lt, Nat.zero_lt_one, if_true]
  obtain ⟨c', h1, h2, h3⟩ := l.refreshed (β := Ptr (t.Val F)) (c := w.inst) (b := some [x]) (k := fun c st =>
    getLoop m t (some [r]) 1 1 0 c st (some [x]) 0 >>- fun (c, st, (values, index)) =>
      if st = .Discard ∨ st = .Error ∨ st = .Fatal then .ret (c, st, values)
      else if t ≠ .binary ∧ index ≠ 1 then fail c "Expected nValues = %zu but was %zu." values
      else .ret (c, st, values))
  obtain ⟨c'', h4⟩ := l.loop h c' x
  rw [h1, h2] at h4
  refine ⟨{ w with inst := c'' }, ?_⟩
  rw [h3, h4]
  simp [Outcome.ret_bind]

/-- A variable can be read only in the modes in which reading is allowed. -/
theorem Reads.allowed {t : VType} {r : Nat} {v : t.Val F} {w : World F D} (h : Reads m w t r v) :
    w.inst.ctx.state ∈ Spec.allowedIn (.get t) := by
  apply (allowed_fn w.inst.ctx (.get t)).1
  show FMI3.allowed w.inst.ctx MASK_Get = true
  cases ha : FMI3.allowed w.inst.ctx MASK_Get
  · obtain ⟨w', e⟩ := h 0 v
    simp [step, World.run, getVars, begin, beginFunction, ha] at e
  · rfl

end FMI3

/-! ## Setting -/

/-- What a successful single write does. -/
theorem wr_data {t : VType} {c c' : Comp F D} {p : Nat × t.Val F} {u : Unit} (hu : m.UniSet t p.1)
    (h : wr m t c p = .ret (c', .OK, u)) :
    ∃ mv' j, m.set t c.ctx c.mv p.1 (some [p.2]) 1 0 = .ret (mv', .OK, j) ∧ c'.ctx = c.ctx ∧ c'.mv.data = mv'.data := by
  have hc := wr_ctx h
  unfold wr at h
  cases e : m.set t c.ctx c.mv p.1 (some [p.2]) 1 0 with
  | ub => rw [e] at h; cases h
  | hang => rw [e] at h; cases h
  | ret a =>
    obtain ⟨mv, s, j⟩ := a
    rw [e, Outcome.ret_bind] at h
    cases s <;> cases h
    exact ⟨mv, j, rfl, rfl, rfl⟩

theorem begin_wr {al : Bool} {name : String} {t : VType} {c c' : Comp F D} {p : Nat × t.Val F} {u : Unit} (hu : m.UniSet t p.1)
    (h : beginFunction al name c () (fun c => wr m t c p) = .ret (c', .OK, u)) :
    ∃ mv' j, m.set t c.ctx c.mv p.1 (some [p.2]) 1 0 = .ret (mv', .OK, j) ∧ c'.ctx = c.ctx ∧ c'.mv.data = mv'.data := by
  unfold beginFunction at h
  split at h
  · exact wr_data hu h
  · cases h

/-- Some states agree on what the importer can read. -/
def Lens.Stored (l : Lens m R) (I : List (VType × Nat)) (t : VType) (r : Nat) (v : t.Val F) (c c' : Comp F D) : Prop :=
  c'.ctx = c.ctx ∧ (∀ τ, l.val t r τ c'.mv.data = t.meant v) ∧
  ∀ t' r', (t', r') ∈ I → (t', r') ≠ (t, r) → ∀ τ, l.val t' r' τ c'.mv.data = l.val t' r' τ c.mv.data

namespace FMI2

theorem set_lens (hm : RefFMU2 m) (l : Lens m R) (hl : l.Sets I) {op : Op F} {t : VType} {r : Nat} {v : t.Val F}
    (hop : SetCall op t r v) (hI : (t, r) ∈ I) {fuel : Nat} {w w' : World F D} {o : Out F}
    (e : step m fuel w op = .ret (w', .OK, o)) : l.Stored I t r v w.inst w'.inst := by
  have hu := (hm.markSet (F := F) t r).toUniSet
  have key : ∃ al name c', beginFunction al name w.inst () (fun c => wr m t c (r, v)) = .ret (c', .OK, ()) ∧ w'.inst = c' := by
    cases hop with
    | real =>
      simp only [step, World.run, setReal, begin] at e
      obtain ⟨⟨c1, s1, u⟩, e1, h⟩ := Outcome.bind_eq_ret.1 e
      cases h
      simp only [single_set hu] at e1
      exact ⟨_, _, _, e1, rfl⟩
    | integer =>
      simp only [step, World.run, setInteger, begin] at e
      obtain ⟨⟨c1, s1, u⟩, e1, h⟩ := Outcome.bind_eq_ret.1 e
      cases h
      simp only [single_set hu] at e1
      exact ⟨_, _, _, e1, rfl⟩
    | boolean _ i =>
      simp only [step, World.run, setBoolean, begin] at e
      obtain ⟨⟨c1, s1, u⟩, e1, h⟩ := Outcome.bind_eq_ret.1 e
      cases h
      have h := fun c : Comp F D => setBooleanLoop_single (p := (r, i)) (hm.markSet .boolean r) c
      simp only at h
      simp only [h] at e1
      exact ⟨_, _, _, e1, rfl⟩
    | string =>
      simp only [step, World.run, setString, begin] at e
      obtain ⟨⟨c1, s1, u⟩, e1, h⟩ := Outcome.bind_eq_ret.1 e
      cases h
      simp only [single_set hu] at e1
      exact ⟨_, _, _, e1, rfl⟩
  obtain ⟨al, name, c', e, rfl⟩ := key
  obtain ⟨mv', j, h1, h2, h3⟩ := begin_wr (p := (r, v)) hu e
  obtain ⟨h4, h5⟩ := hl t r hI _ _ _ _ _ h1
  exact ⟨h2, fun τ => by rw [h3]; exact h4 τ, fun t' r' h hne τ => by rw [h3]; exact h5 t' r' h hne τ⟩

end FMI2

namespace FMI3

theorem set_lens (l : Lens m R) (hl : l.Sets I) {t : VType} {r : Nat} {v : t.Val F} (hu : m.UniSet t r)
    (hI : (t, r) ∈ I) {fuel : Nat} {w w' : World F D} {o : Out F}
    (e : step m fuel w (.set t (some [r]) 1 (some [v]) 1) = .ret (w', .OK, o)) : l.Stored I t r v w.inst w'.inst := by
  simp only [step, single_set hu, World.run] at e
  obtain ⟨⟨c1, s1, u⟩, e1, h⟩ := Outcome.bind_eq_ret.1 e
  cases h
  obtain ⟨mv', j, h1, h2, h3⟩ := begin_wr (p := (r, v)) hu e1
  obtain ⟨h4, h5⟩ := hl t r hI _ _ _ _ _ h1
  exact ⟨h2, fun τ => by rw [← h4 τ, ← h3], fun t' r' h hne τ => by rw [← h5 t' r' h hne τ, ← h3]⟩

end FMI3

/-- The lens of an FMU with listed independent variables. -/
theorem Independent.lens {I : List (VType × Nat)} (h : Independent m I) :
    ∃ (R : List (VType × Nat)) (l : Lens m R), I ⊆ R ∧ l.Sets I := by
  cases h with
  | bouncingBall => exact ⟨_, Lens.bouncingBall, by simp [List.subset_def], Lens.bouncingBall_sets⟩
  | clocks => exact ⟨_, Lens.clocks, by simp [List.subset_def], Lens.clocks_sets⟩
  | dahlquist => exact ⟨_, Lens.dahlquist, by simp [List.subset_def], Lens.dahlquist_sets⟩
  | feedthrough2 => exact ⟨_, Lens.feedthrough2, by simp [List.subset_def], Lens.feedthrough2_sets⟩
  | feedthrough3 => exact ⟨_, Lens.feedthrough3, by simp [List.subset_def], Lens.feedthrough3_sets⟩
  | roberts => exact ⟨_, Lens.roberts, by simp [List.subset_def], Lens.roberts_sets⟩
  | stair => exact ⟨_, Lens.stair, by simp [List.subset_def], Lens.stair_sets⟩
  | vanDerPol => exact ⟨_, Lens.vanDerPol, by simp [List.subset_def], Lens.vanDerPol_sets⟩

end Verif
