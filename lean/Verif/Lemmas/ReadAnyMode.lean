import Verif.Lemmas.Modes2

/-! # Reading variables does not depend on the mode -/

set_option linter.unusedSectionVars false

namespace Verif
variable {F D : Type} [Arith F]

/-- Reading does not depend on the mode. -/
structure Model.ReadsAnyMode (m : Model F D) : Prop where
  calcV : ∀ (ctx : Ctx F) mv s, m.calculateValues { ctx with state := s } mv = m.calculateValues ctx mv
  get : ∀ t (ctx : Ctx F) mv s vr p n i,
    m.get t { ctx with state := s } mv vr p n i = m.get t ctx mv vr p n i

theorem RefFMU2.readsAnyMode {m : Model F D} (h : RefFMU2 m) : m.ReadsAnyMode := by
  cases h <;> exact ⟨fun _ _ _ => rfl, fun t _ _ _ _ _ _ _ => by cases t <;> rfl⟩
theorem RefFMU3.readsAnyMode {m : Model F D} (h : RefFMU3 m) : m.ReadsAnyMode := by
  cases h <;> exact ⟨fun _ _ _ => rfl, fun t _ _ _ _ _ _ _ => by cases t <;> rfl⟩

/-- The same result with the instance terminated. -/
def TermOf {β : Type} (r r' : Res F D β) : Prop :=
  ∀ c s b, r = .ret (c, s, b) → r' = .ret (c.setState .terminated, s, b)

theorem TermOf.call {α β : Type} {r r' : Res F D α} {stop : α → β}
    {k k' : Comp F D → Status → α → Res F D β} (hr : TermOf r r')
    (hs : r.All fun x => x.2.1 = .OK ∨ x.2.1 = .Error)
    (hk : ∀ c a, TermOf (k c .OK a) (k' (c.setState .terminated) .OK a)) :
    TermOf (call .OK r stop k) (call .OK r' stop k') := by
  intro c s b h
  unfold Verif.call at h ⊢
  obtain ⟨⟨c1, s1, b1⟩, e1, h⟩ := Outcome.bind_eq_ret.1 h
  rw [hr _ _ _ e1]
  rcases hs _ e1 with hs | hs <;> simp only at hs <;> subst hs
  · exact hk _ _ _ _ _ h
  · simp only [Status.rank, Outcome.ret_bind] at h ⊢
    simp only [gt_iff_lt, Nat.zero_lt_succ, if_true] at h ⊢
    cases h; rfl

theorem TermOf.bind {α β : Type} {r : Outcome α} {k k' : α → Res F D β}
    (hk : ∀ a, TermOf (k a) (k' a)) : TermOf (r >>- k) (r >>- k') := by
  intro c s b h
  obtain ⟨a, e, h⟩ := Outcome.bind_eq_ret.1 h
  rw [e]; exact hk _ _ _ _ h

theorem TermOf.ret {β : Type} {c : Comp F D} {s : Status} {b : β} :
    TermOf (.ret (c, s, b)) (.ret (c.setState .terminated, s, b)) := by
  intro c s b h; cases h; rfl

section
variable {m : Model F D}

theorem TermOf.lift {β : Type} {c : Comp F D} {r r' : MRes F D β} (h : r' = r) :
    TermOf (c.lift r) ((c.setState .terminated).lift r') := by
  subst h
  intro c' s b e
  obtain ⟨⟨mv, s', b'⟩, e1, e⟩ := Outcome.bind_eq_ret.1 e
  cases e
  simp [Comp.lift, e1, Comp.setState]

theorem lift_status {β : Type} {c : Comp F D} {r : MRes F D β}
    (h : ∀ mv s b, r = .ret (mv, s, b) → s = .OK ∨ s = .Error) :
    (c.lift r).All fun x => x.2.1 = .OK ∨ x.2.1 = .Error := by
  rintro ⟨c', s, b⟩ e
  obtain ⟨⟨mv, s', b'⟩, e1, e⟩ := Outcome.bind_eq_ret.1 e
  cases e
  exact h _ _ _ e1

theorem TermOf.getLoop (hr : m.ReadsAnyMode) (hm : OkOrError m) {t vr nValues} (n : Nat) :
    ∀ i c values index, TermOf (getLoop m t vr nValues n i c .OK values index)
      (getLoop m t vr nValues n i (c.setState .terminated) .OK values index) := by
  induction n with
  | zero => intro i c v ix; exact .ret
  | succ n ih =>
    intro i c v ix
    refine .bind fun r => ?_
    refine .call (.lift (hr.get ..)) (lift_status fun _ _ _ e => hm _ _ _ _ _ (.get e)) ?_
    intro c a; exact ih _ _ _ _

theorem TermOf.refresh (hr : m.ReadsAnyMode) (hm : OkOrError m) {β : Type} {c : Comp F D} {stop : β}
    {k k' : Comp F D → Status → Res F D β}
    (hk : ∀ c, TermOf (k c .OK) (k' (c.setState .terminated) .OK)) :
    TermOf (refresh m .OK c stop k) (refresh m .OK (c.setState .terminated) stop k') := by
  unfold Verif.refresh
  have : (c.setState .terminated).mv.isDirtyValues = c.mv.isDirtyValues := rfl
  rw [this]
  split
  · refine .call (.lift (hr.calcV ..)) (lift_status fun _ _ _ e => hm _ _ _ _ _ (.calc e)) ?_
    intro c a; exact hk _
  · exact hk _

theorem TermOf.nonNull {α β : Type} {p : Option α} {c : Comp F D} {stop : β} {k k' : Res F D β}
    (hk : TermOf k k') :
    TermOf (assertNonNull p c stop k) (assertNonNull p (c.setState .terminated) stop k') := by
  unfold assertNonNull
  split
  · exact .ret
  · exact hk

theorem TermOf.getBooleanLoop (hr : m.ReadsAnyMode) (hm : OkOrError m) {vr nvr} (n : Nat) :
    ∀ i c values, TermOf (FMI2.getBooleanLoop m vr nvr n i c .OK values)
      (FMI2.getBooleanLoop m vr nvr n i (c.setState .terminated) .OK values) := by
  induction n with
  | zero => intro i c v; exact .ret
  | succ n ih =>
    intro i c v
    refine .bind fun r => ?_
    refine .call (.lift (hr.get ..)) (lift_status fun _ _ _ e => hm _ _ _ _ _ (.get e)) ?_
    intro c a
    exact .bind fun b => .bind fun _ => ih _ _ _

end
end Verif
