import Verif.Lemmas.Lawful

/-! # Which loops of the API functions succeed -/

set_option linter.unusedSectionVars false

namespace Verif
variable {F D : Type} {m : Model F D} {p : Profile F D}

/-- If the function returns, it returns `OK` exactly if `P` holds. -/
def OkIff {β : Type} (r : Res F D β) (P : Prop) : Prop := r.All fun x => (x.2.1 = .OK ↔ P)

section
variable {α β : Type} {P P' : Prop}

theorem OkIff.ok {c : Comp F D} {b : β} (h : P) : OkIff (.ret (c, .OK, b)) P := by simp [OkIff, h]
theorem OkIff.no {c : Comp F D} {s : Status} {b : β} (hs : s ≠ .OK) (h : ¬P) : OkIff (.ret (c, s, b)) P := by simp [OkIff, h, hs]
theorem OkIff.iff {r : Res F D β} (h : OkIff r P) (e : P ↔ P') : OkIff r P' := by rwa [← e]
theorem OkIff.bind {γ : Type} {r : Outcome γ} {f : γ → Res F D β} (h : ∀ a, r = .ret a → OkIff (f a) P) :
    OkIff (r >>- f) P := Outcome.all_bind.2 fun a e => h a e

/-- `CALL`: what is called returns `OK` or `Error`. -/
theorem OkIff.call {r : Res F D α} {stop : α → β} {k : Comp F D → Status → α → Res F D β}
    (h : r.All fun x => (x.2.1 = .OK ∧ OkIff (k x.1 .OK x.2.2) P) ∨ (x.2.1 = .Error ∧ ¬P)) :
    OkIff (call .OK r stop k) P := by
  refine Outcome.All.bind h ?_
  rintro ⟨c, s, a⟩ (⟨rfl, h⟩ | ⟨rfl, h⟩)
  · simpa [Status.rank, OkIff] using h
  · simp [Status.rank, h]

theorem OkIff.callLast {r : Res F D α} {out : α → β} (h : r.All fun x => (x.2.1 = .OK ∧ P) ∨ (x.2.1 = .Error ∧ ¬P)) :
    OkIff (callLast r out) P :=
  OkIff.call (h.mono fun _ h => h.imp (fun ⟨a, b⟩ => ⟨a, .ok b⟩) id)

theorem OkIff.nonNull {q : Option α} {c : Comp F D} {stop : β} {r : Res F D β} (hq : P → q ≠ none)
    (h : q ≠ none → OkIff r P) : OkIff (assertNonNull q c stop r) P := by
  unfold assertNonNull
  split
  · next e =>
    simp only [Option.isNone_iff_eq_none] at e
    exact .no (by simp) fun h' => hq h' e
  · next e =>
    simp only [Option.isNone_iff_eq_none] at e
    exact h e

theorem lift_all {c : Comp F D} {r : MRes F D β} {Q : Comp F D × Status × β → Prop}
    (h : r.All fun x => Q ({ c with mv := x.1 }, x.2.1, x.2.2)) : (c.lift r).All Q :=
  Outcome.All.bind h fun _ h => Outcome.all_ret.2 h

end

theorem OkOrError.of {β : Type} (hm : OkOrError m) {f : MFn} {ctx : Ctx F} {mv : MV F D} {r : MRes F D β}
    (h : ∀ mv' s b, r = .ret (mv', s, b) → MStep m f ctx mv mv' s) : r.All fun x => x.2.1 = .OK ∨ x.2.1 = .Error :=
  fun x e => hm f ctx mv x.1 x.2.1 (h x.1 x.2.1 x.2.2 e)

/-- Split on the two statuses of a function of `model.c`. -/
theorem split_status {β : Type} {r : MRes F D β} {P : Prop} {Q : MV F D × Status × β → Prop}
    (h1 : r.All fun x => x.2.1 = .OK ∨ x.2.1 = .Error) (h2 : r.All fun x => (x.2.1 = .OK ↔ P))
    (hok : ∀ x, r = .ret x → x.2.1 = .OK → P → Q x) (herr : ∀ x, x.2.1 = .Error → ¬P → Q x) : r.All Q := by
  intro x e
  rcases h1 x e with h | h
  · exact hok x e h ((h2 x e).1 h)
  · exact herr x h fun hp => by have := (h2 x e).2 hp; simp [h] at this

variable (hl : Lawful m p) (hm : OkOrError m)
include hl hm

theorem refresh_okIff {β : Type} {c : Comp F D} {stop : β} {k : Comp F D → Status → Res F D β} {P : Prop}
    (hn : p.needs c.ctx) (h : ∀ mv, OkIff (k { c with mv := mv } .OK) P) : OkIff (refresh m .OK c stop k) P := by
  unfold refresh
  split
  · refine OkIff.call (lift_all ?_)
    intro x e
    exact .inl ⟨hl.«calc» c.ctx c.mv hn x e, h _⟩
  · exact h c.mv

theorem vec_okIff {α β : Type} {c : Comp F D} {r : MRes F D α} {out : α → β} {f : MFn} {P : Prop}
    (h : r.All fun x => (x.2.1 = .OK ↔ P)) (hs : ∀ mv' s b, r = .ret (mv', s, b) → MStep m f c.ctx c.mv mv' s) :
    OkIff (callLast (c.lift r) out) P := by
  refine OkIff.callLast (lift_all (split_status (hm.of hs) h ?_ ?_))
  · intro x _ h1 h2; exact .inl ⟨h1, h2⟩
  · intro x h1 h2; exact .inr ⟨h1, h2⟩

theorem getLoop_ok (t : VType) (vr : Ptr Nat) (nV : Nat) : ∀ (n i : Nat) (c : Comp F D) (q : Ptr (t.Val F)) (k : Nat),
    (getLoop m t vr nV n i c .OK q k).All fun x =>
      (x.2.1 = .OK ↔ n = 0 ∨ (q ≠ none ∧ k + n ≤ nV ∧ ∀ j < n, ∃ r, vr.At (i + j) r ∧ p.declares t r)) ∧
      (x.2.1 = .OK → x.2.2.2 = k + n) ∧ (x.2.1 = .OK ∨ x.2.1 = .Error) := by
  intro n
  induction n with
  | zero => intro i c q k; simp [getLoop]
  | succ n ih =>
    intro i c q k
    unfold getLoop
    refine Outcome.all_bind.2 fun r er => ?_
    have er' := Ptr.at_read.1 er
    have hg := hl.get t c.ctx c.mv r q nV k
    have ho := hm.of (r := m.get t c.ctx c.mv r q nV k) (fun mv' s b e => MStep.get e)
    refine Outcome.All.bind (lift_all (c := c) (Q := fun x => (x.2.1 = .OK ∧ x.2.2.2 = k + 1 ∧ x.2.2.1 ≠ none ∧
        p.declares t r ∧ q ≠ none ∧ k < nV) ∨ (x.2.1 = .Error ∧ ¬(p.declares t r ∧ q ≠ none ∧ k < nV))) ?_) ?_
    · intro x e
      have h := hg x e
      rcases ho x e with h' | h'
      · exact .inl ⟨h', (h.2 h').1, (h.2 h').2, h.1.1 h'⟩
      · exact .inr ⟨h', fun hP => by have := h.1.2 hP; simp [h'] at this⟩
    · rintro ⟨c', s, q', k'⟩ (⟨rfl, h1, h2, h3, h4, h5⟩ | ⟨rfl, h1⟩)
      · simp only [Status.rank, Nat.lt_irrefl, if_false]
        simp only at h1 h2
        subst h1
        refine (ih (i + 1) c' q' (k + 1)).mono ?_
        rintro ⟨c'', s, q'', k''⟩ ⟨g1, g2, g3⟩
        refine ⟨g1.trans ?_, fun e => by rw [g2 e]; omega, g3⟩
        constructor
        · intro h
          refine .inr ⟨h4, ?_, ?_⟩
          · rcases h with rfl | ⟨-, h, -⟩ <;> omega
          · intro j hj
            cases j with
            | zero => exact ⟨r, er', h3⟩
            | succ j =>
              rcases h with rfl | ⟨-, -, h⟩
              · omega
              · obtain ⟨r', h', h''⟩ := h j (by omega)
                exact ⟨r', by rwa [show i + (j + 1) = i + 1 + j by omega], h''⟩
        · rintro (h | ⟨-, h, h'⟩)
          · omega
          · refine .inr ⟨h2, by omega, fun j hj => ?_⟩
            obtain ⟨r', h', h''⟩ := h' (j + 1) (by omega)
            exact ⟨r', by rwa [show i + 1 + j = i + (j + 1) by omega], h''⟩
      · simp only [Status.rank, show (3 : Nat) > 0 by decide, if_true, id, Outcome.all_ret, reduceCtorEq, false_iff, false_implies,
          or_true, and_true]
        rintro (h | ⟨g1, g2, g3⟩)
        · omega
        · obtain ⟨r', h', h''⟩ := g3 0 (by omega)
          cases er'.inj h'
          exact h1 ⟨h'', g1, by omega⟩

theorem setLoop_ok (t : VType) (vr : Ptr Nat) (q : Ptr (t.Val F)) (nV : Nat) : ∀ (n i : Nat) (c : Comp F D) (k : Nat),
    (setLoop m t vr q nV n i c .OK k).All fun x =>
      (x.2.1 = .OK ↔ n = 0 ∨ (k + n ≤ nV ∧ ∀ j < n, ∃ r v, vr.At (i + j) r ∧ q.At (k + j) v ∧
        p.settable c.ctx.typ c.ctx.state t r v)) ∧
      (x.2.1 = .OK → x.2.2 = k + n) ∧ (x.2.1 = .OK ∨ x.2.1 = .Error) := by
  intro n
  induction n with
  | zero => intro i c k; simp [setLoop]
  | succ n ih =>
    intro i c k
    unfold setLoop
    refine Outcome.all_bind.2 fun r er => ?_
    have er' := Ptr.at_read.1 er
    have hg := hl.set t c.ctx c.mv r q nV k
    have ho := hm.of (r := m.set t c.ctx c.mv r q nV k) (fun mv' s b e => MStep.set e)
    refine Outcome.All.bind (lift_all (c := c) (Q := fun x => x.1.ctx = c.ctx ∧ ((x.2.1 = .OK ∧ x.2.2 = k + 1 ∧
        ∃ v, q.At k v ∧ k < nV ∧ p.settable c.ctx.typ c.ctx.state t r v) ∨
        (x.2.1 = .Error ∧ ¬∃ v, q.At k v ∧ k < nV ∧ p.settable c.ctx.typ c.ctx.state t r v))) ?_) ?_
    · intro x e
      have h := hg x e
      refine ⟨rfl, ?_⟩
      rcases ho x e with h' | h'
      · exact .inl ⟨h', h.2 h', h.1.1 h'⟩
      · exact .inr ⟨h', fun hP => by have := h.1.2 hP; simp [h'] at this⟩
    · rintro ⟨c', s, k'⟩ ⟨hc, (⟨rfl, h1, v, h3, h4, h5⟩ | ⟨rfl, h1⟩)⟩
      · simp only [Status.rank, Nat.lt_irrefl, if_false]
        simp only at h1 hc
        subst h1
        refine (ih (i + 1) c' (k + 1)).mono ?_
        rintro ⟨c'', s, k''⟩ ⟨g1, g2, g3⟩
        rw [hc] at g1
        refine ⟨g1.trans ?_, fun e => by rw [g2 e]; omega, g3⟩
        constructor
        · intro h
          refine .inr ⟨?_, ?_⟩
          · rcases h with rfl | ⟨h, -⟩ <;> omega
          · intro j hj
            cases j with
            | zero => exact ⟨r, v, er', h3, h5⟩
            | succ j =>
              rcases h with rfl | ⟨-, h⟩
              · omega
              · obtain ⟨r', v', h', h'', h'''⟩ := h j (by omega)
                exact ⟨r', v', by rwa [show i + (j + 1) = i + 1 + j by omega], by rwa [show k + (j + 1) = k + 1 + j by omega],
                  h'''⟩
        · rintro (h | ⟨h, h'⟩)
          · omega
          · refine .inr ⟨by omega, fun j hj => ?_⟩
            obtain ⟨r', v', h', h'', h'''⟩ := h' (j + 1) (by omega)
            exact ⟨r', v', by rwa [show i + 1 + j = i + (j + 1) by omega], by rwa [show k + 1 + j = k + (j + 1) by omega], h'''⟩
      · simp only [Status.rank, show (3 : Nat) > 0 by decide, if_true, id, Outcome.all_ret, reduceCtorEq, false_iff, false_implies,
          or_true, and_true]
        rintro (h | ⟨g1, g2⟩)
        · omega
        · obtain ⟨r', v', h', h'', h'''⟩ := g2 0 (by omega)
          cases er'.inj h'
          exact h1 ⟨v', h'', by omega, h'''⟩

theorem configurate_ok (c : Comp F D) :
    (configurate m c).All fun x => x.2.1 = .OK := by
  unfold configurate
  simp only
  split
  · refine Outcome.All.bind (lift_all (Q := fun x => x.2.1 = .OK) ?_) ?_
    · refine split_status (hm.of fun mv' s b e => MStep.indicators e) (hl.indicators _ _ _ _) (fun _ _ h _ => h) ?_
      intro x _ h
      exact absurd ⟨hl.numZ _, fun _ => by simp⟩ h
    · rintro ⟨c', s, q⟩ h
      simp only at h
      subst h
      simp
  · simp

omit hl hm in
theorem forall_lt_succ {n i : Nat} {Q : Nat → Prop} : (∀ j < n + 1, Q (i + j)) ↔ Q i ∧ ∀ j < n, Q (i + 1 + j) := by
  constructor
  · intro h
    exact ⟨h 0 (by omega), fun j hj => by rw [show i + 1 + j = i + (j + 1) by omega]; exact h (j + 1) (by omega)⟩
  · rintro ⟨h0, h⟩ j hj
    cases j with
    | zero => exact h0
    | succ j => rw [show i + (j + 1) = i + 1 + j by omega]; exact h j (by omega)


theorem getBooleanLoop_ok (vr : Ptr Nat) {nvr : Nat} (hn : 0 < nvr) : ∀ (n i : Nat) (c : Comp F D) (value : Ptr Int),
    OkIff (FMI2.getBooleanLoop m vr nvr n i c .OK value) (∀ j < n, ∃ r, vr.At (i + j) r ∧ p.declares .boolean r) := by
  intro n
  induction n with
  | zero => intro i c value; exact .ok (by simp)
  | succ n ih =>
    intro i c value
    unfold FMI2.getBooleanLoop
    refine .bind fun r er => .call (lift_all ?_)
    have er' := Ptr.at_read.1 er
    rw [forall_lt_succ (Q := fun j => ∃ r, vr.At j r ∧ p.declares .boolean r)]
    have hg := hl.get .boolean c.ctx c.mv r (some [false]) nvr 0
    refine split_status (P := p.declares .boolean r) (hm.of fun mv' s b e => MStep.get e) ?_ ?_ ?_
    · intro x e
      have h := (hg x e).1
      refine h.trans ⟨fun h => h.1, fun h => ⟨h, by simp, hn⟩⟩
    · intro x e h1 h2
      refine .inl ⟨h1, .bind fun v _ => .bind fun value' _ => (ih _ _ _).iff ?_⟩
      exact ⟨fun h => ⟨⟨r, er', h2⟩, h⟩, fun h => h.2⟩
    · intro x h1 h2
      refine .inr ⟨h1, ?_⟩
      rintro ⟨⟨r', h, h'⟩, -⟩
      cases er'.inj h
      exact h2 h'

omit hl hm in
theorem Ptr.At.map {α β : Type} {q : Ptr α} {f : α → β} {i : Nat} {b : β} :
    Ptr.At (q.map fun l => l.map f) i b ↔ ∃ a, q.At i a ∧ b = f a := by
  unfold Ptr.At
  cases q with
  | none => simp
  | some l => simp [eq_comm]

theorem setBooleanLoop_ok (vr : Ptr Nat) {nvr : Nat} (hn : 0 < nvr) (value : Ptr Int) : ∀ (n i : Nat) (c : Comp F D),
    OkIff (FMI2.setBooleanLoop m vr nvr value n i c .OK) (∀ j < n, ∃ r x, vr.At (i + j) r ∧
      Ptr.At (value.map fun l => l.map fun x => decide (x ≠ 0)) (i + j) x ∧ p.settable c.ctx.typ c.ctx.state .boolean r x) := by
  intro n
  induction n with
  | zero => intro i c; exact .ok (by simp)
  | succ n ih =>
    intro i c
    unfold FMI2.setBooleanLoop
    refine .bind fun v ev => .bind fun r er => .call (lift_all ?_)
    have er' := Ptr.at_read.1 er
    have ev' := Ptr.at_read.1 ev
    rw [forall_lt_succ (Q := fun j => ∃ r x, vr.At j r ∧
      Ptr.At (value.map fun l => l.map fun x => decide (x ≠ 0)) j x ∧ p.settable c.ctx.typ c.ctx.state .boolean r x)]
    have hg := hl.set .boolean c.ctx c.mv r (some [decide (v ≠ 0)]) nvr 0
    refine split_status (P := p.settable c.ctx.typ c.ctx.state .boolean r (decide (v ≠ 0)))
      (hm.of fun mv' s b e => MStep.set e) ?_ ?_ ?_
    · intro x e
      refine (hg x e).1.trans ?_
      constructor
      · rintro ⟨v', ⟨l, h1, h2⟩, -, h⟩
        cases h1
        simp only [List.getElem?_cons_zero, Option.some.injEq] at h2
        rwa [h2]
      · intro h
        exact ⟨decide (v ≠ 0), ⟨_, rfl, rfl⟩, hn, h⟩
    · intro x e h1 h2
      refine .inl ⟨h1, (ih (i + 1) { c with mv := x.1 }).iff ?_⟩
      exact ⟨fun h => ⟨⟨r, _, er', Ptr.At.map.2 ⟨v, ev', rfl⟩, h2⟩, h⟩, fun h => h.2⟩
    · intro x h1 h2
      refine .inr ⟨h1, ?_⟩
      rintro ⟨⟨r', v', h, h', h''⟩, -⟩
      obtain ⟨v'', g, rfl⟩ := Ptr.At.map.1 h'
      cases er'.inj h
      cases ev'.inj g
      exact h2 h''

theorem outputDerivLoop_ok {f : Ctx F → MV F D → Nat → Int → F → MRes F D F} {l : List Nat} (ef : m.getOutputDerivative = some f)
    (el : p.outputDerivatives = some l) (vr : Ptr Nat) (order : Ptr Int) : ∀ (n i : Nat) (c : Comp F D) (out : Ptr F),
    OkIff (outputDerivLoop f vr order n i c .OK out) (∀ j < n, ∃ r ∈ l, vr.At (i + j) r ∧ order.At (i + j) 1) := by
  intro n
  induction n with
  | zero => intro i c out; exact .ok (by simp)
  | succ n ih =>
    intro i c out
    unfold outputDerivLoop
    refine .bind fun r er => .bind fun o eo => .bind fun old _ => ?_
    have er' := Ptr.at_read.1 er
    have eo' := Ptr.at_read.1 eo
    rw [forall_lt_succ (Q := fun j => ∃ r ∈ l, vr.At j r ∧ order.At j 1)]
    refine Outcome.All.bind (lift_all (c := c) (Q := fun x => (x.2.1 = .OK ∧ r ∈ l ∧ o = 1) ∨
      (x.2.1 = .Error ∧ ¬(r ∈ l ∧ o = 1))) ?_) ?_
    · exact split_status (hm.of fun mv' s b e => MStep.outDeriv ef e) (hl.outDeriv f l ef el c.ctx c.mv r o old)
        (fun _ _ h1 h2 => .inl ⟨h1, h2⟩) (fun _ h1 h2 => .inr ⟨h1, h2⟩)
    · rintro ⟨c', s, v⟩ h
      refine OkIff.bind fun out' _ => .call (Outcome.all_ret.2 ?_)
      rcases h with ⟨h1, h2, h3⟩ | ⟨h1, h2⟩
      · refine .inl ⟨h1, (ih (i + 1) c' out').iff ?_⟩
        subst h3
        exact ⟨fun h => ⟨⟨r, h2, er', eo'⟩, h⟩, fun h => h.2⟩
      · refine .inr ⟨h1, ?_⟩
        rintro ⟨⟨r', h, h', h''⟩, -⟩
        cases er'.inj h'
        cases eo'.inj h''
        exact h2 ⟨h, rfl⟩

theorem getClockLoop_ok (vr : Ptr Nat) : ∀ (n i : Nat) (c : Comp F D) (out : Ptr Bool),
    OkIff (FMI3.getClockLoop m vr n i c .OK out) (∀ j < n, ∃ r ∈ p.outputClocks, vr.At (i + j) r) := by
  intro n
  induction n with
  | zero => intro i c out; exact .ok (by simp)
  | succ n ih =>
    intro i c out
    unfold FMI3.getClockLoop
    refine .bind fun r er => .bind fun old _ => ?_
    have er' := Ptr.at_read.1 er
    rw [forall_lt_succ (Q := fun j => ∃ r ∈ p.outputClocks, vr.At j r)]
    refine Outcome.All.bind (lift_all (c := c) (Q := fun x => (x.2.1 = .OK ∧ r ∈ p.outputClocks) ∨
      (x.2.1 = .Error ∧ ¬r ∈ p.outputClocks)) ?_) ?_
    · exact split_status (hm.of fun mv' s b e => MStep.getClock e) (hl.getClock c.ctx c.mv r old)
        (fun _ _ h1 h2 => .inl ⟨h1, h2⟩) (fun _ h1 h2 => .inr ⟨h1, h2⟩)
    · rintro ⟨c', s, v⟩ h
      refine OkIff.bind fun out' _ => .call (Outcome.all_ret.2 ?_)
      rcases h with ⟨h1, h2⟩ | ⟨h1, h2⟩
      · refine .inl ⟨h1, (ih (i + 1) c' out').iff ?_⟩
        exact ⟨fun h => ⟨⟨r, h2, er'⟩, h⟩, fun h => h.2⟩
      · refine .inr ⟨h1, ?_⟩
        rintro ⟨⟨r', h, h'⟩, -⟩
        cases er'.inj h'
        exact h2 h

theorem getIntervalLoop_ok (vr : Ptr Nat) : ∀ (n i : Nat) (c : Comp F D) (out : Ptr F × Ptr Int),
    OkIff (FMI3.getIntervalLoop m vr n i c .OK out) (∀ j < n, ∃ r ∈ p.intervals, vr.At (i + j) r) := by
  intro n
  induction n with
  | zero => intro i c out; exact .ok (by simp)
  | succ n ih =>
    rintro i c ⟨a, b⟩
    unfold FMI3.getIntervalLoop
    refine .bind fun r er => .bind fun oldI _ => .bind fun oldQ _ => ?_
    have er' := Ptr.at_read.1 er
    rw [forall_lt_succ (Q := fun j => ∃ r ∈ p.intervals, vr.At j r)]
    refine Outcome.All.bind (lift_all (c := c) (Q := fun x => (x.2.1 = .OK ∧ r ∈ p.intervals) ∨
      (x.2.1 = .Error ∧ ¬r ∈ p.intervals)) ?_) ?_
    · exact split_status (hm.of fun mv' s b e => MStep.getInterval e) (hl.interval c.ctx c.mv r oldI oldQ)
        (fun _ _ h1 h2 => .inl ⟨h1, h2⟩) (fun _ h1 h2 => .inr ⟨h1, h2⟩)
    · rintro ⟨c', s, v, v'⟩ h
      refine OkIff.bind fun a' _ => OkIff.bind fun b' _ => .call (Outcome.all_ret.2 ?_)
      rcases h with ⟨h1, h2⟩ | ⟨h1, h2⟩
      · refine .inl ⟨h1, (ih (i + 1) c' (a', b')).iff ?_⟩
        exact ⟨fun h => ⟨⟨r, h2, er'⟩, h⟩, fun h => h.2⟩
      · refine .inr ⟨h1, ?_⟩
        rintro ⟨⟨r', h, h'⟩, -⟩
        cases er'.inj h'
        exact h2 h

theorem setClockLoop_ok (vr : Ptr Nat) (v : Ptr Bool) : ∀ (n i : Nat) (c : Comp F D),
    OkIff (FMI3.setClockLoop m vr v n i c .OK) (∀ j < n, v.At (i + j) true → p.clocks = true) := by
  intro n
  induction n with
  | zero => intro i c; exact .ok (by simp)
  | succ n ih =>
    intro i c
    unfold FMI3.setClockLoop
    refine .bind fun b eb => ?_
    have eb' := Ptr.at_read.1 eb
    rw [forall_lt_succ (Q := fun j => v.At j true → p.clocks = true)]
    split
    · next hb =>
      subst hb
      refine .bind fun r er => .call (lift_all (split_status (hm.of fun mv' s b e => MStep.activate e) (hl.activate c.ctx c.mv r) ?_ ?_))
      · intro x _ h1 h2
        exact .inl ⟨h1, (ih _ _).iff ⟨fun h => ⟨fun _ => h2, h⟩, fun h => h.2⟩⟩
      · intro x h1 h2
        exact .inr ⟨h1, fun h => h2 (h.1 eb')⟩
    · next hb =>
      refine (ih _ _).iff ⟨fun h => ⟨fun h' => ?_, h⟩, fun h => h.2⟩
      cases eb'.inj h'
      simp at hb

theorem derivInner_ok [Arith F] {pair : Nat → Outcome (Nat × Nat)} (seed : Ptr F) : ∀ (n j : Nat) (c : Comp F D) (acc : F),
    (derivInner m pair seed n j c .OK acc).All fun x => (x.2.1 = .OK ↔ n = 0 ∨ p.partialDerivatives = true) ∧
      (x.2.1 = .OK ∨ x.2.1 = .Error) := by
  intro n
  induction n with
  | zero => intro j c acc; simp [derivInner]
  | succ n ih =>
    intro j c acc
    unfold derivInner
    refine Outcome.all_bind.2 fun uk _ => ?_
    refine Outcome.All.bind (lift_all (c := c) (Q := fun x => (x.2.1 = .OK ∧ p.partialDerivatives = true) ∨
      (x.2.1 = .Error ∧ ¬p.partialDerivatives = true)) ?_) ?_
    · exact split_status (hm.of fun mv' s b e => MStep.partialDeriv e) (hl.partialDeriv c.ctx c.mv uk.1 uk.2 (Arith.lit 0))
        (fun _ _ h1 h2 => .inl ⟨h1, h2⟩) (fun _ h1 h2 => .inr ⟨h1, h2⟩)
    · rintro ⟨c', s, v⟩ (⟨rfl, h⟩ | ⟨rfl, h⟩)
      · simp only [Status.rank, Nat.lt_irrefl, if_false]
        refine Outcome.all_bind.2 fun s _ => ?_
        refine (ih (j + 1) c' _).mono ?_
        rintro x ⟨h1, h2⟩
        exact ⟨by simpa [h] using h1, h2⟩
      · simp [Status.rank, h]

theorem derivOuter_ok [Arith F] {pair : Nat → Nat → Outcome (Nat × Nat)} (seed : Ptr F) (nI : Nat) :
    ∀ (n i : Nat) (c : Comp F D) (out : Ptr F),
    OkIff (derivOuter m pair seed nI n i c .OK out) (n = 0 ∨ nI = 0 ∨ p.partialDerivatives = true) := by
  intro n
  induction n with
  | zero => intro i c out; exact .ok (by simp)
  | succ n ih =>
    intro i c out
    unfold derivOuter
    refine .bind fun out' _ => Outcome.All.bind (derivInner_ok hl hm seed nI 0 c (Arith.lit 0)) ?_
    rintro ⟨c', s, v⟩ ⟨h1, h2⟩
    refine OkIff.bind fun out'' _ => ?_
    simp only at h1 h2
    rcases h2 with rfl | rfl
    · simp only [true_iff] at h1
      rw [if_neg (by simp)]
      exact (ih (i + 1) c' out'').iff ⟨fun _ => .inr h1, fun _ => .inr h1⟩
    · rw [if_pos (by simp)]
      refine .no (by simp) ?_
      simp only [reduceCtorEq, false_iff] at h1
      simpa using h1

omit hl hm in
theorem setDebugLoggingLoop_ok (on : Bool) (cats : Ptr (Option String)) : ∀ (n i : Nat) (c : Comp F D),
    (setDebugLoggingLoop on cats n i c).All fun x =>
      (x.2.1 = .OK ∧ ∀ j < n, cats.At (i + j) (some "logEvents") ∨ cats.At (i + j) (some "logStatusError")) ∨
      (x.2.1 = .Error ∧ ¬∀ j < n, cats.At (i + j) (some "logEvents") ∨ cats.At (i + j) (some "logStatusError")) := by
  intro n
  induction n with
  | zero => intro i c; simp [setDebugLoggingLoop]
  | succ n ih =>
    intro i c
    unfold setDebugLoggingLoop
    refine Outcome.all_bind.2 fun cat ec => ?_
    have ec' := Ptr.at_read.1 ec
    rw [forall_lt_succ (Q := fun j => cats.At j (some "logEvents") ∨ cats.At j (some "logStatusError"))]
    have hgo : ∀ c' : Comp F D, (cats.At i (some "logEvents") ∨ cats.At i (some "logStatusError")) →
        (setDebugLoggingLoop on cats n (i + 1) c').All fun x =>
          (x.2.1 = .OK ∧ (cats.At i (some "logEvents") ∨ cats.At i (some "logStatusError")) ∧
            ∀ j < n, cats.At (i + 1 + j) (some "logEvents") ∨ cats.At (i + 1 + j) (some "logStatusError")) ∨
          (x.2.1 = .Error ∧ ¬((cats.At i (some "logEvents") ∨ cats.At i (some "logStatusError")) ∧
            ∀ j < n, cats.At (i + 1 + j) (some "logEvents") ∨ cats.At (i + 1 + j) (some "logStatusError"))) :=
      fun c' h => (ih (i + 1) c').mono fun x hx => hx.imp (fun h' => ⟨h'.1, h, h'.2⟩) fun h' => ⟨h'.1, fun g => h'.2 g.2⟩
    simp only
    split
    · refine Outcome.all_ret.2 (.inr ⟨rfl, ?_⟩)
      rintro ⟨h | h, -⟩ <;> cases ec'.inj h
    · next s =>
      split
      · next hs => subst hs; exact hgo _ (.inl ec')
      · next hs =>
        split
        · next hs => subst hs; exact hgo _ (.inr ec')
        · next hs' =>
          refine Outcome.all_ret.2 (.inr ⟨rfl, ?_⟩)
          rintro ⟨h | h, -⟩
          · cases ec'.inj h; exact hs rfl
          · cases ec'.inj h; exact hs' rfl

omit hl hm in
theorem setDebugLogging_ok (c : Comp F D) (on : Bool) (n : Nat) (cats : Ptr (Option String)) :
    OkIff (callLast (setDebugLogging c on n cats) (id : Unit → Unit)) (LogCategories n cats) := by
  refine OkIff.callLast ?_
  unfold setDebugLogging LogCategories
  split
  · next hn =>
    split
    · next hc =>
      simp only [Option.isNone_iff_eq_none] at hc
      refine Outcome.all_ret.2 (.inr ⟨rfl, fun h => ?_⟩)
      rcases h 0 hn with ⟨l, e, -⟩ | ⟨l, e, -⟩ <;> simp [hc] at e
    · simpa using setDebugLoggingLoop_ok on cats n 0 c
  · next hn =>
    have : n = 0 := by omega
    subst this
    simp

end Verif
