import Verif.Lemmas.Legal3
import Verif.Lemmas.StateSpaceDims
import Verif.Lemmas.Count
import Verif.Spec.LegalStateSpace

/-! # Which calls of StateSpace succeed -/

set_option linter.unusedSectionVars false

namespace Verif

section
variable {F D : Type} [Arith F] {m : Model F D}

/-- The value references in the array from position `i` on. -/
def RefsAt (vr : Ptr Nat) (i : Nat) (rs : List Nat) : Prop := ∀ j r, rs[j]? = some r → vr.At (i + j) r

theorem RefsAt.cons {vr : Ptr Nat} {i r : Nat} {rs : List Nat} (h : vr.At i r) (hs : RefsAt vr (i + 1) rs) : RefsAt vr i (r :: rs) := by
  intro j r' e
  cases j with
  | zero => simp only [List.getElem?_cons_zero, Option.some.injEq] at e; subst e; exact h
  | succ j => rw [show i + (j + 1) = i + 1 + j by omega]; exact hs j r' (by simpa using e)

theorem RefsAt.head {vr : Ptr Nat} {i r : Nat} {rs : List Nat} (h : RefsAt vr i (r :: rs)) : vr.At i r := h 0 r rfl
theorem RefsAt.tail {vr : Ptr Nat} {i r : Nat} {rs : List Nat} (h : RefsAt vr i (r :: rs)) : RefsAt vr (i + 1) rs := by
  intro j r' e
  rw [show i + 1 + j = i + (j + 1) by omega]
  exact h (j + 1) r' (by simpa using e)

theorem RefsAt.unique {vr : Ptr Nat} : ∀ {i : Nat} {rs rs' : List Nat}, RefsAt vr i rs → RefsAt vr i rs' → rs.length = rs'.length → rs = rs'
  | _, [], [], _, _, _ => rfl
  | _, [], _ :: _, _, _, h => by simp at h
  | _, _ :: _, [], _, _, h => by simp at h
  | i, r :: rs, r' :: rs', h, h', e => by
    cases h.head.inj h'.head
    rw [RefsAt.unique h.tail h'.tail (by simpa using e)]

theorem refsAt_zero {vr : Ptr Nat} {rs : List Nat} : RefsAt vr 0 rs ↔ References vr rs := by simp [RefsAt, References]

/-- An accessor of the variables with `P` that have `sz` elements. -/
def BlockOK {β : Type} (ix : β → Nat) (S : D → Prop) (N : β → Prop) (P : Prop) (k sz nv : Nat) (r : MRes F D β) : Prop :=
  r.All fun x => (x.2.1 = .OK ∧ (P ∧ k + sz ≤ nv) ∧ S x.1.data ∧ ix x.2.2 = k + sz ∧ N x.2.2) ∨ (x.2.1 = .Error ∧ ¬(P ∧ k + sz ≤ nv))

theorem getLoop_block {t : VType} {S : D → Prop} {P : Nat → Prop} {sz : Nat → Nat} {nv : Nat}
    (hg : ∀ ctx mv r q k, S mv.data → BlockOK (·.2) S (·.1 ≠ none) (P r ∧ q ≠ none) k (sz r) nv (m.get t ctx mv r q nv k)) (vr : Ptr Nat) :
    ∀ (n i : Nat) (c : Comp F D) (q : Ptr (t.Val F)) (k : Nat), S c.mv.data →
    (getLoop m t vr nv n i c .OK q k).All fun x =>
      (x.2.1 = .OK ∧ ∃ rs, rs.length = n ∧ RefsAt vr i rs ∧ (∀ r ∈ rs, P r) ∧ (n ≠ 0 → q ≠ none) ∧ x.2.2.2 = k + (rs.map sz).sum) ∨
      (x.2.1 = .Error ∧ ¬∃ rs, rs.length = n ∧ RefsAt vr i rs ∧ (∀ r ∈ rs, P r) ∧ q ≠ none ∧ k + (rs.map sz).sum ≤ nv) := by
  intro n
  induction n with
  | zero => intro i c q k _; exact Outcome.all_ret.2 (.inl ⟨rfl, [], rfl, by simp [RefsAt], by simp, by simp, by simp⟩)
  | succ n ih =>
    intro i c q k hS
    unfold getLoop
    refine Outcome.all_bind.2 fun r er => ?_
    have er' := Ptr.at_read.1 er
    refine Outcome.All.bind (lift_all (c := c) (Q := fun x => (x.2.1 = .OK ∧ ((P r ∧ q ≠ none) ∧ k + sz r ≤ nv) ∧ S x.1.mv.data ∧
      x.2.2.2 = k + sz r ∧ x.2.2.1 ≠ none) ∨ (x.2.1 = .Error ∧ ¬((P r ∧ q ≠ none) ∧ k + sz r ≤ nv))) ((hg c.ctx c.mv r q k hS).mono fun x h => h.imp (fun ⟨h1, h2, h3, h4, h5⟩ => ⟨h1, h2, h3, h4, h5⟩) fun h => h)) ?_
    rintro ⟨c', s, q', k'⟩ (⟨rfl, ⟨⟨h1, h2⟩, h3⟩, h4, h5, h6⟩ | ⟨rfl, h1⟩)
    · simp only [Status.rank, Nat.lt_irrefl, if_false]
      simp only at h4 h5 h6
      subst h5
      refine (ih (i + 1) c' q' (k + sz r) h4).mono ?_
      rintro ⟨c'', s, q'', k''⟩ (⟨rfl, rs, g1, g2, g3, g4, g5⟩ | ⟨rfl, g⟩)
      · refine .inl ⟨rfl, r :: rs, by simp [g1], .cons er' g2, ?_, fun _ => h2, ?_⟩
        · intro r' hr; rcases List.mem_cons.1 hr with rfl | hr
          · exact h1
          · exact g3 _ hr
        · simp only at g5; simp only [List.map_cons, List.sum_cons, g5]; omega
      · refine .inr ⟨rfl, ?_⟩
        rintro ⟨rs, e1, e2, e3, e4, e5⟩
        cases rs with
        | nil => simp at e1
        | cons r' rs =>
          cases er'.inj e2.head
          exact g ⟨rs, by simpa using e1, e2.tail, fun _ h => e3 _ (List.mem_cons_of_mem _ h), h6, by
            simp only [List.map_cons, List.sum_cons] at e5; omega⟩
    · simp only [Status.rank, show (3 : Nat) > 0 by decide, if_true, id, Outcome.all_ret]
      refine .inr ⟨trivial, ?_⟩
      rintro ⟨rs, e1, e2, e3, e4, e5⟩
      cases rs with
      | nil => simp at e1
      | cons r' rs =>
        cases er'.inj e2.head
        exact h1 ⟨⟨e3 _ (by simp), e4⟩, by simp only [List.map_cons, List.sum_cons] at e5; omega⟩

theorem setLoop_block {t : VType} {S : D → Prop} {P : Nat → Prop} {sz : Nat → Nat} {nv : Nat} {q : Ptr (t.Val F)} {ctx : Ctx F}
    (hg : ∀ mv r k, S mv.data → BlockOK id S (fun _ => True) (P r ∧ q ≠ none) k (sz r) nv (m.set t ctx mv r q nv k)) (vr : Ptr Nat) :
    ∀ (n i : Nat) (c : Comp F D) (k : Nat), c.ctx = ctx → S c.mv.data →
    (setLoop m t vr q nv n i c .OK k).All fun x =>
      (x.2.1 = .OK ∧ ∃ rs, rs.length = n ∧ RefsAt vr i rs ∧ (∀ r ∈ rs, P r) ∧ (n ≠ 0 → q ≠ none) ∧ x.2.2 = k + (rs.map sz).sum) ∨
      (x.2.1 = .Error ∧ ¬∃ rs, rs.length = n ∧ RefsAt vr i rs ∧ (∀ r ∈ rs, P r) ∧ q ≠ none ∧ k + (rs.map sz).sum ≤ nv) := by
  intro n
  induction n with
  | zero => intro i c k _ _; exact Outcome.all_ret.2 (.inl ⟨rfl, [], rfl, by simp [RefsAt], by simp, by simp, by simp⟩)
  | succ n ih =>
    intro i c k hc hS
    unfold setLoop
    refine Outcome.all_bind.2 fun r er => ?_
    have er' := Ptr.at_read.1 er
    refine Outcome.All.bind (lift_all (c := c) (Q := fun x => (x.2.1 = .OK ∧ ((P r ∧ q ≠ none) ∧ k + sz r ≤ nv) ∧ S x.1.mv.data ∧
      x.2.2 = k + sz r ∧ x.1.ctx = ctx) ∨ (x.2.1 = .Error ∧ ¬((P r ∧ q ≠ none) ∧ k + sz r ≤ nv))) ?_) ?_
    · have hg' := hg c.mv r k hS
      rw [← hc] at hg'
      exact hg'.mono fun x h => h.imp (fun ⟨h1, h2, h3, h4, _⟩ => ⟨h1, h2, h3, h4, hc⟩) id
    rintro ⟨c', s, k'⟩ (⟨rfl, ⟨⟨h1, h2⟩, h3⟩, h4, h5, h6⟩ | ⟨rfl, h1⟩)
    · simp only [Status.rank, Nat.lt_irrefl, if_false]
      simp only at h4 h5 h6
      subst h5
      refine (ih (i + 1) c' (k + sz r) h6 h4).mono ?_
      rintro ⟨c'', s, k''⟩ (⟨rfl, rs, g1, g2, g3, g4, g5⟩ | ⟨rfl, g⟩)
      · refine .inl ⟨rfl, r :: rs, by simp [g1], .cons er' g2, ?_, fun _ => h2, ?_⟩
        · intro r' hr; rcases List.mem_cons.1 hr with rfl | hr
          · exact h1
          · exact g3 _ hr
        · simp only at g5; simp only [List.map_cons, List.sum_cons, g5]; omega
      · refine .inr ⟨rfl, ?_⟩
        rintro ⟨rs, e1, e2, e3, e4, e5⟩
        cases rs with
        | nil => simp at e1
        | cons r' rs =>
          cases er'.inj e2.head
          exact g ⟨rs, by simpa using e1, e2.tail, fun _ h => e3 _ (List.mem_cons_of_mem _ h), h2, by
            simp only [List.map_cons, List.sum_cons] at e5; omega⟩
    · simp only [Status.rank, show (3 : Nat) > 0 by decide, if_true, id, Outcome.all_ret]
      refine .inr ⟨trivial, ?_⟩
      rintro ⟨rs, e1, e2, e3, e4, e5⟩
      cases rs with
      | nil => simp at e1
      | cons r' rs =>
        cases er'.inj e2.head
        exact h1 ⟨⟨e3 _ (by simp), e4⟩, by simp only [List.map_cons, List.sum_cons] at e5; omega⟩

end

namespace StateSpace
variable {F : Type} [Arith F] {ctx : Ctx F} {mv : MV F (Data F)}

section
variable {D : Type} {β : Type} {ix : β → Nat} {S : D → Prop} {N : β → Prop} {P : Prop} {k sz nv : Nat} {ctx : Ctx F} {mv : MV F D}

theorem _root_.Verif.BlockOK.fail {msg : String} {b : β} (h : ¬P) : BlockOK ix S N P k sz nv (failM ctx mv msg b) :=
  Outcome.all_ret.2 (.inr ⟨rfl, fun h' => h h'.1⟩)

theorem _root_.Verif.BlockOK.notNull {α : Type} {q : Option α} {b : β} {r : MRes F D β} (hP : P → q ≠ none)
    (h : q ≠ none → BlockOK ix S N P k sz nv r) : BlockOK ix S N P k sz nv (assertNotNull ctx mv q b r) := by
  unfold assertNotNull
  split
  · next hq => simp only [Option.isNone_iff_eq_none] at hq; exact .fail fun h => hP h hq
  · next hq => simp only [Option.isNone_iff_eq_none] at hq; exact h hq

theorem _root_.Verif.BlockOK.nValues {j : Nat} {b : β} {r : MRes F D β} (hj : j = sz) (h : k + sz ≤ nv → BlockOK ix S N P k sz nv r) :
    BlockOK ix S N P k sz nv (assertNValues ctx mv j nv k b r) := by
  unfold assertNValues
  subst hj
  split
  · exact Outcome.all_ret.2 (.inr ⟨rfl, fun h' => by omega⟩)
  · exact h (by omega)
end

theorem inBounds3 {d : Data F} (h : dims3 d) : inBounds d = true := by
  obtain ⟨h1, h2, h3⟩ := h
  simp [inBounds, h1, h2, h3, maxDim]

theorem writeN_some {α : Type} : ∀ {l : List α} {p : Ptr α} {i : Nat} {q : Ptr α}, p ≠ none → writeN p i l = .ret q → q ≠ none
  | [], p, i, q, h, e => by cases e; exact h
  | a :: l, p, i, q, h, e => by
    unfold writeN at e
    obtain ⟨p', e1, e2⟩ := Outcome.bind_eq_ret.1 e
    refine writeN_some ?_ e2
    cases p with
    | none => exact absurd rfl h
    | some l' =>
      simp only [Ptr.write] at e1
      split at e1 <;> cases e1
      simp

theorem length_entries' (rows cols : Nat) (M : Nat → Nat → F) : (entries rows cols M).length = rows * cols := length_entries rows cols M

theorem _root_.Verif.BlockOK.block {P : Prop} {q : Ptr F} {nv k sz : Nat} {l : List F} (hP : P) (hq : q ≠ none) (hl : l.length = sz) (hd : dims3 mv.data) :
    BlockOK (·.2) dims3 (·.1 ≠ none) (P ∧ q ≠ none) k sz nv (putBlock ctx mv q nv k l) := by
  unfold putBlock
  refine .nValues hl fun h => Outcome.all_bind.2 fun p e => Outcome.all_ret.2 (.inl ⟨rfl, ⟨⟨hP, hq⟩, h⟩, hd, by simp [hl], writeN_some hq e⟩)

theorem _root_.Verif.BlockOK.scalar {α : Type} {P : Prop} {q : Ptr α} {nv k : Nat} {v : α} (hP : P) (hq : q ≠ none) (hd : dims3 mv.data) :
    BlockOK (·.2) dims3 (·.1 ≠ none) (P ∧ q ≠ none) k 1 nv (putScalar ctx mv q nv k v) := by
  unfold putScalar
  refine .nValues rfl fun h => Outcome.all_bind.2 fun p e => Outcome.all_ret.2 (.inl ⟨rfl, ⟨⟨hP, hq⟩, h⟩, hd, rfl, ?_⟩)
  exact writeN_some (l := [v]) (i := k) hq (by simp [writeN, e])

theorem _root_.Verif.BlockOK.take {P : Prop} {q : Ptr F} {nv k sz j : Nat} {f : List F → Data F} (hP : P) (hq : q ≠ none) (hj : j = sz)
    (hd : dims3 mv.data) (hf : ∀ l, dims3 (f l)) :
    BlockOK id dims3 (fun _ => True) (P ∧ q ≠ none) k sz nv (takeBlock ctx mv q nv k j f) := by
  unfold takeBlock
  refine .nValues hj fun h => ?_
  rw [guarded, inBounds3 hd, if_pos rfl]
  exact Outcome.all_bind.2 fun l e => Outcome.all_ret.2 (.inl ⟨rfl, ⟨⟨hP, hq⟩, h⟩, hf l, by simp [hj], trivial⟩)

theorem get_block_ok (t : VType) {nv : Nat} : ∀ (ctx : Ctx F) (mv : MV F (Data F)) r (q : Ptr (t.Val F)) k, dims3 mv.data →
    BlockOK (·.2) dims3 (·.1 ≠ none) (declares t r ∧ q ≠ none) k (count t r) nv (model.get t ctx mv r q nv k) := by
  intro ctx mv r q k hd
  have hd' : dims3 (calcValues mv).data := hd
  obtain ⟨h1, h2, h3⟩ := hd'
  cases t
  case float64 =>
    refine BlockOK.notNull (fun h => h.2) fun hq => ?_
    simp only [calculateValues, guarded, inBounds3 hd, if_true, Outcome.ret_bind]
    split
    case h_1 => exact .scalar (.inl rfl) hq hd
    case h_11 => 
      refine .fail ?_
      rintro ⟨h | h, -⟩ <;> simp_all
      omega
    all_goals
      refine BlockOK.block (.inr (by omega)) hq ?_ hd
      simp [length_entries', elems, h1, h2, h3, count, elements]
  case uint64 =>
    refine BlockOK.notNull (fun h => h.2) fun hq => ?_
    split
    case h_4 =>
      refine .fail ?_
      rintro ⟨h, -⟩
      simp only [declares] at h
      simp_all
      omega
    all_goals exact .scalar (by simp [declares]) hq hd
  all_goals exact .fail fun h => h.1

theorem set_block_ok (t : VType) (ht : t ≠ .uint64) {nv : Nat} (q : Ptr (t.Val F)) (ctx : Ctx F) : ∀ (mv : MV F (Data F)) r k, dims3 mv.data →
    BlockOK id dims3 (fun _ => True) (settable ctx.state t r ∧ q ≠ none) k (count t r) nv (model.set t ctx mv r q nv k) := by
  intro mv r k hd
  obtain ⟨h1, h2, h3⟩ := hd
  cases t
  case uint64 => exact absurd rfl ht
  case float64 =>
    refine BlockOK.notNull (fun h => h.2) fun hq => ?_
    split
    case h_7 =>
      split
      · next h =>
        refine .fail ?_
        simp only [ne_eq, decide_not, Bool.and_eq_true, Bool.not_eq_true', decide_eq_false_iff_not] at h
        rintro ⟨⟨-, h' | ⟨-, h'⟩⟩, -⟩
        · omega
        · exact h'.elim h.1 h.2
      · next h =>
        simp only [ne_eq, decide_not, Bool.and_eq_true, Bool.not_eq_true', decide_eq_false_iff_not, Classical.not_and_iff_not_or_not,
          Classical.not_not] at h
        exact .take ⟨rfl, .inr ⟨rfl, h⟩⟩ hq (by simp [h2, count, elements]) ⟨h1, h2, h3⟩ fun _ => ⟨h1, h2, h3⟩
    case h_8 =>
      refine .fail ?_
      rintro ⟨⟨-, h | h⟩, -⟩ <;> simp_all
      omega
    all_goals
      exact .take ⟨rfl, .inl (by omega)⟩ hq (by simp [h1, h2, h3, count, elements]) ⟨h1, h2, h3⟩ fun _ => ⟨h1, h2, h3⟩
  all_goals exact .fail fun h => by simpa [settable] using h.1.1

/-! ## Reading and setting variables -/

theorem refresh_dims {β : Type} {c : Comp F (Data F)} {stop : β} {k : Comp F (Data F) → Status → Res F (Data F) β} {P : Prop}
    (hd : dims3 c.mv.data) (h : ∀ mv, dims3 mv.data → OkIff (k { c with mv := mv } .OK) P) : OkIff (refresh model .OK c stop k) P := by
  unfold refresh
  split
  · have e : (model (F := F)).calculateValues c.ctx c.mv = .ret (calcValues c.mv, .OK, ()) := by
      simp [model, calculateValues, guarded, inBounds3 hd]
    rw [e]
    exact h _ hd
  · exact h c.mv hd

theorem getVars_okIff {t : VType} {vr : Ptr Nat} {n nv : Nat} {v : Ptr (t.Val F)} {c : Comp F (Data F)} (hd : dims3 c.mv.data) :
    OkIff (FMI3.getVars model t c vr n v nv) (c.ctx.state ∈ FMI3.Spec.allowedIn (.get t) ∧
      (n = 0 ∨ ∃ rs, rs.length = n ∧ References vr rs ∧ (∀ r ∈ rs, declares t r) ∧ (rs.map (count t)).sum = nv ∧ v ≠ none)) := by
  unfold FMI3.getVars
  refine FMI3.begin_okIff (fn := .get t) ?_
  split
  · next h => exact .ok (.inl h)
  · next h =>
    have hk : OkIff (refresh model .OK c v fun c st =>
        getLoop model t vr nv n 0 c st v 0 >>- fun (c, st, (values, index)) =>
        if st = .Discard ∨ st = .Error ∨ st = .Fatal then .ret (c, st, values)
        else if t ≠ .binary ∧ index ≠ nv then FMI3.fail c "Expected nValues = %zu but was %zu." values
        else .ret (c, st, values)) (∃ rs, rs.length = n ∧ References vr rs ∧ (∀ r ∈ rs, declares t r) ∧
          (rs.map (count t)).sum = nv ∧ v ≠ none) := by
      refine refresh_dims hd fun mv hd => Outcome.All.bind (getLoop_block (get_block_ok t) vr n 0 { c with mv := mv } v 0 hd) ?_
      rintro ⟨c', s, v', k⟩ (⟨rfl, rs, h1, h2, h3, h4, h5⟩ | ⟨rfl, h1⟩)
      · simp only [Nat.zero_add] at h5
        have h4 := h4 h
        simp only [reduceCtorEq, or_self, if_false]
        split
        · next hb =>
          refine Outcome.all_ret.2 ?_
          simp only [reduceCtorEq, false_iff]
          rintro ⟨rs', e1, e2, e3, e4, e5⟩
          cases h2.unique (refsAt_zero.2 e2) (h1.trans e1.symm)
          exact hb.2 (h5.trans e4)
        · next hb =>
          refine Outcome.all_ret.2 ?_
          simp only [true_iff]
          refine ⟨rs, h1, refsAt_zero.1 h2, h3, ?_, h4⟩
          have ht : t ≠ .binary := by
            rintro rfl
            cases rs with
            | nil => exact h h1.symm
            | cons r rs => exact h3 r (by simp)
          exact h5.symm.trans (Classical.not_not.1 fun h' => hb ⟨ht, h'⟩)
      · simp only [reduceCtorEq, or_true, or_false, if_true]
        refine Outcome.all_ret.2 ?_
        simp only [reduceCtorEq, false_iff]
        rintro ⟨rs, e1, e2, e3, e4, e5⟩
        exact h1 ⟨rs, e1, refsAt_zero.2 e2, e3, e5, by omega⟩
    refine OkIff.iff ?_ (⟨.inr, fun h' => h'.resolve_left h⟩ : _ ↔ _)
    refine .nonNull (fun hP e => ?_) fun _ => ?_
    · obtain ⟨rs, e1, e2, -⟩ := hP
      cases rs with
      | nil => exact h e1.symm
      | cons r rs =>
        obtain ⟨l, e', -⟩ := e2 0 r rfl
        simp [e] at e'
    · simp only
      split
      · exact .nonNull (fun ⟨_, _, _, _, _, hP⟩ => hP) fun _ => hk
      · exact hk

theorem setVars_okIff {t : VType} (ht : t ≠ .uint64) {vr : Ptr Nat} {n nv : Nat} {v : Ptr (t.Val F)} {c : Comp F (Data F)}
    (hd : dims3 c.mv.data) :
    OkIff (FMI3.setVars model t c vr n v nv) (c.ctx.state ∈ FMI3.Spec.allowedIn (.set t) ∧
      (n = 0 ∨ ∃ rs, rs.length = n ∧ References vr rs ∧ (∀ r ∈ rs, settable c.ctx.state t r) ∧ (rs.map (count t)).sum = nv ∧ v ≠ none)) := by
  unfold FMI3.setVars
  refine FMI3.begin_okIff (fn := .set t) ?_
  split
  · next h => exact .ok (.inl h)
  · next h =>
    refine OkIff.iff ?_ (⟨.inr, fun h' => h'.resolve_left h⟩ : _ ↔ _)
    refine .nonNull (fun hP e => ?_) fun _ => ?_
    · obtain ⟨rs, e1, e2, -⟩ := hP
      cases rs with
      | nil => exact h e1.symm
      | cons r rs =>
        obtain ⟨l, e', -⟩ := e2 0 r rfl
        simp [e] at e'
    · refine Outcome.All.bind (setLoop_block (set_block_ok t ht v c.ctx) vr n 0 c 0 rfl hd) ?_
      rintro ⟨c', s, k⟩ (⟨rfl, rs, h1, h2, h3, h4, h5⟩ | ⟨rfl, h1⟩)
      · simp only [Nat.zero_add] at h5
        have h4 := h4 h
        simp only [reduceCtorEq, or_self, if_false]
        split
        · next hb =>
          refine Outcome.all_ret.2 ?_
          simp only [reduceCtorEq, false_iff]
          rintro ⟨rs', e1, e2, e3, e4, e5⟩
          cases h2.unique (refsAt_zero.2 e2) (h1.trans e1.symm)
          exact hb (h5.trans e4)
        · next hb =>
          refine Outcome.all_ret.2 ?_
          simp only [true_iff]
          exact ⟨rs, h1, refsAt_zero.1 h2, h3, h5.symm.trans (Classical.not_not.1 hb), h4⟩
      · simp only [reduceCtorEq, or_true, or_false, if_true]
        refine Outcome.all_ret.2 ?_
        simp only [reduceCtorEq, false_iff]
        rintro ⟨rs, e1, e2, e3, e4, e5⟩
        exact h1 ⟨rs, e1, refsAt_zero.2 e2, e3, e5, by omega⟩

/-! ## The other calls -/

instance (d : Data F) : Decidable (dims3 d) := inferInstanceAs (Decidable (_ ∧ _ ∧ _))

/-- StateSpace without its variables, with 3 states. -/
def rest : Model F (Data F) :=
  { (model : Model F (Data F)) with
    maxNX := 3
    get := fun t => getStub t
    set := fun t => setStub t
    numContinuousStates := fun _ => 3
    calculateValues := fun _ mv => .ret (mv, .OK, ())
    getContinuousStates := fun ctx mv p n => if dims3 mv.data then model.getContinuousStates ctx mv p n else .ub
    getNominals := fun ctx mv p n => if dims3 mv.data then model.getNominals ctx mv p n else .ub
    setContinuousStates := fun ctx mv p n => if dims3 mv.data then model.setContinuousStates ctx mv p n else .ub
    getDerivatives := fun ctx mv p n => if dims3 mv.data then model.getDerivatives ctx mv p n else .ub }

section
variable {D : Type} {m m' : Model F D}

theorem getClockLoop_congr (h : m'.getClock = m.getClock) (vr : Ptr Nat) : ∀ (n i : Nat) (c : Comp F D) (st : Status) (values : Ptr Bool),
    FMI3.getClockLoop m' vr n i c st values = FMI3.getClockLoop m vr n i c st values := by
  intro n
  induction n with
  | zero => intros; rfl
  | succ n ih => intros; simp only [FMI3.getClockLoop, ih, h]

theorem setClockLoop_congr (h : m'.activateClock = m.activateClock) (vr : Ptr Nat) (values : Ptr Bool) :
    ∀ (n i : Nat) (c : Comp F D) (st : Status), FMI3.setClockLoop m' vr values n i c st = FMI3.setClockLoop m vr values n i c st := by
  intro n
  induction n with
  | zero => intros; rfl
  | succ n ih => intros; simp only [FMI3.setClockLoop, ih, h]

theorem getIntervalLoop_congr (h : m'.getInterval = m.getInterval) (vr : Ptr Nat) :
    ∀ (n i : Nat) (c : Comp F D) (st : Status) (p : Ptr F × Ptr Int),
    FMI3.getIntervalLoop m' vr n i c st p = FMI3.getIntervalLoop m vr n i c st p := by
  intro n
  induction n with
  | zero => intros; rfl
  | succ n ih => intros; simp only [FMI3.getIntervalLoop, ih, h]

theorem derivInner_congr (h : m'.getPartialDerivative = m.getPartialDerivative) (pair : Nat → Outcome (Nat × Nat)) (seed : Ptr F) :
    ∀ (n i : Nat) (c : Comp F D) (st : Status) (a : F), derivInner m' pair seed n i c st a = derivInner m pair seed n i c st a := by
  intro n
  induction n with
  | zero => intros; rfl
  | succ n ih => intros; simp only [derivInner, ih, h]

theorem derivOuter_congr (h : m'.getPartialDerivative = m.getPartialDerivative) (pair : Nat → Nat → Outcome (Nat × Nat)) (seed : Ptr F) (k : Nat) :
    ∀ (n i : Nat) (c : Comp F D) (st : Status) (p : Ptr F), derivOuter m' pair seed k n i c st p = derivOuter m pair seed k n i c st p := by
  intro n
  induction n with
  | zero => intros; rfl
  | succ n ih => intros; simp only [derivOuter, ih, derivInner_congr h]

end

theorem VecOK.here {q : Ptr F} {n : Nat} {r : MRes F (Data F) (Ptr F)} (hd : mv.data.n = 3)
    (hr : r.All fun x => x.2.1 = .OK) : VecOK 3 q n (assertNotNull ctx mv q q (checkNx ctx mv q n r)) := by
  unfold assertNotNull checkNx
  split
  · next hq =>
    simp only [Option.isNone_iff_eq_none] at hq
    simp only [VecOK, failM, HasCount, Outcome.all_ret, reduceCtorEq, false_iff]
    rintro ⟨rfl, h'⟩
    exact h' (by omega) hq
  · next hq =>
    simp only [Option.isNone_iff_eq_none] at hq
    split
    · next hn => rw [hd] at hn; simp [VecOK, failM, HasCount, hn]
    · next hn =>
      rw [hd] at hn
      have : n = 3 := by omega
      exact hr.mono fun x h => by simp [HasCount, this, hq, h]

theorem rest_vec {P : Prop} [Decidable P] {q : Ptr F} {n : Nat} {r : MRes F (Data F) (Ptr F)} (h : P → VecOK 3 q n r) :
    VecOK 3 q n (if P then r else .ub) := by
  split
  · next hp => exact h hp
  · exact Outcome.all_ub.2 trivial

theorem rest_lawful : Lawful (rest (F := F)) profile where
  «calc» ctx mv h := by simp [rest]
  get t ctx mv r q n i := by
    simp only [rest, getStub]
    refine .fail ?_
    simp [Profile.declares, profile]
  set t ctx mv r q n i := by
    simp only [rest, setStub]
    refine .fail ?_
    simp [Profile.settable, profile]
  getStates ctx mv q n := rest_vec fun hd => VecOK.here hd.2.1 (by
    rw [guarded, inBounds3 hd]
    exact Outcome.all_bind.2 fun _ _ => by simp)
  nominals ctx mv q n := rest_vec fun hd => VecOK.here hd.2.1 (Outcome.all_bind.2 fun _ _ => by simp)
  setStates ctx mv q n := rest_vec fun hd => VecOK.here hd.2.1 (by
    rw [guarded, inBounds3 hd]
    exact Outcome.all_bind.2 fun _ _ => by simp)
  deriv ctx mv q n := rest_vec fun hd => VecOK.here hd.2.1 (Outcome.all_bind.2 fun _ _ => Outcome.all_bind.2 fun _ _ => by simp)
  indicators ctx mv q n := VecOK.stub
  numX _ := rfl
  numZ _ := rfl
  maxNX := rfl
  maxNZ := rfl
  partialDeriv ctx mv u k b := by simp [rest, model, partialStub, failM, profile]
  noOutDeriv := by simp [rest, model, profile]
  outDeriv f l e := by simp [rest, model] at e
  event eu e := by
    simp only [rest, model, Option.some.injEq] at e
    subst e
    simp [eventUpdate]
  activate ctx mv r := by simp [rest, model, profile]
  getClock ctx mv r b := by simp [rest, model, profile]
  interval ctx mv r a b := by simp [rest, model, profile]
  partition ctx mv r t := by simp [rest, model, profile]

theorem rest_ok : OkOrError (rest (F := F)) := by
  intro f ctx mv mv' s h
  have key := (RefFMU3.stateSpace (F := F)).eff.okOrError
  cases h with
  | «calc» e => cases e; exact .inl rfl
  | get e => cases e; exact .inr rfl
  | set e => cases e; exact .inr rfl
  | event h e => exact key _ _ _ _ _ (.event h e)
  | getStates e => simp only [rest] at e; split at e <;> first | (cases e; done) | exact key _ _ _ _ _ (.getStates e)
  | nominals e => simp only [rest] at e; split at e <;> first | (cases e; done) | exact key _ _ _ _ _ (.nominals e)
  | setStates e => simp only [rest] at e; split at e <;> first | (cases e; done) | exact key _ _ _ _ _ (.setStates e)
  | deriv e => simp only [rest] at e; split at e <;> first | (cases e; done) | exact key _ _ _ _ _ (.deriv e)
  | indicators e => exact key _ _ _ _ _ (.indicators e)
  | @partialDeriv u k _ _ _ _ _ _ e => exact key _ _ _ _ _ (.partialDeriv (u := u) (k := k) e)
  | outDeriv h e => exact key _ _ _ _ _ (.outDeriv h e)
  | activate e => cases e; exact .inr rfl
  | getClock e => cases e; exact .inr rfl
  | getInterval e => cases e; exact .inr rfl
  | partition e => cases e; exact .inr rfl

variable [HasInf F]

/-- All calls except DoStep. -/
theorem step_okIff {fuel : Nat} {w : FMI3.World F (Data F)} {op : FMI3.Op F} (hd : dims3 w.inst.mv.data) (hop : op.fn ≠ .doStep) :
    (FMI3.step model fuel w op).All fun x => (x.2.1 = .OK ↔ w.inst.ctx.state ∈ FMI3.Spec.allowedIn op.fn ∧ FMI3.ArgsStateSpace model w op) := by
  have viaRest : FMI3.step rest fuel w op = FMI3.step model fuel w op →
      (FMI3.ArgsStateSpace model w op ↔ FMI3.Args rest profile w op) →
      (FMI3.step model fuel w op).All fun x => (x.2.1 = .OK ↔ w.inst.ctx.state ∈ FMI3.Spec.allowedIn op.fn ∧ FMI3.ArgsStateSpace model w op) := by
    intro e ha
    rw [← e, ha]
    exact FMI3.step_okIff rest_lawful rest_ok trivial hop fun _ h => h
  cases op
  case get t vr n v nv => dsimp only [FMI3.step]; exact FMI3.World.run_okIff (getVars_okIff hd)
  case set t vr n v nv =>
    by_cases ht : t = .uint64
    · subst ht
      intro x e
      by_cases hn : n = 0
      · subst hn
        have : OkIff (FMI3.setVars model .uint64 w.inst vr 0 v nv) (w.inst.ctx.state ∈ FMI3.Spec.allowedIn (.set .uint64) ∧ True) := by
          unfold FMI3.setVars
          refine FMI3.begin_okIff (fn := .set .uint64) ?_
          simp [OkIff]
        have : x.2.1 = .OK ↔ _ := FMI3.World.run_okIff (w := w) (out := fun _ => .unit) this x e
        rw [this]
        simp [FMI3.ArgsStateSpace, FMI3.Op.fn]
      · have := FMI3.C36_violated hn e
        rw [this]
        simp only [reduceCtorEq, false_iff]
        rintro ⟨-, h | ⟨rs, h1, -, h2, -⟩⟩
        · exact hn h
        · cases rs with
          | nil => exact hn h1.symm
          | cons r rs => have := (h2 r (by simp)).1; cases this
    · dsimp only [FMI3.step]; exact FMI3.World.run_okIff (setVars_okIff ht hd)
  case exitInitializationMode =>
    dsimp only [FMI3.step]
    refine FMI3.World.run_okIff ?_
    refine FMI3.begin_okIff (fn := .exitInitializationMode) (P := True) (refresh_dims hd fun mv hd => ?_)
    exact .call (Outcome.all_ret.2 (.inl ⟨rfl, .ok trivial⟩))
  case exitConfigurationMode =>
    dsimp only [FMI3.step]
    refine FMI3.World.run_okIff ?_
    refine FMI3.begin_okIff (fn := .exitConfigurationMode) (P := True) ?_
    simp only
    split
    · exact .callLast (Outcome.all_ret.2 (.inl ⟨rfl, trivial⟩))
    · exact .ok trivial
  case doStep => exact absurd rfl hop
  case getClock => exact viaRest (by simp only [FMI3.step, FMI3.getClock, getClockLoop_congr (m' := rest) (m := model (F := F)) rfl]) Iff.rfl
  case setClock => exact viaRest (by simp only [FMI3.step, FMI3.setClock, setClockLoop_congr (m' := rest) (m := model (F := F)) rfl]) Iff.rfl
  case getDirectionalDerivative =>
    exact viaRest (by simp only [FMI3.step, FMI3.getDirectionalDerivative, derivOuter_congr (m' := rest) (m := model (F := F)) rfl]) Iff.rfl
  case getAdjointDerivative =>
    exact viaRest (by simp only [FMI3.step, FMI3.getAdjointDerivative, derivOuter_congr (m' := rest) (m := model (F := F)) rfl]) Iff.rfl
  case getIntervalDecimal =>
    exact viaRest (by simp only [FMI3.step, FMI3.getIntervalDecimal, getIntervalLoop_congr (m' := rest) (m := model (F := F)) rfl]) Iff.rfl
  case getContinuousStates => exact viaRest (by simp only [FMI3.step, FMI3.getContinuousStates, FMI3.begin, beginFunction, rest, if_pos hd]) Iff.rfl
  case getNominals => exact viaRest (by simp only [FMI3.step, FMI3.getNominals, FMI3.begin, beginFunction, rest, if_pos hd]) Iff.rfl
  case setContinuousStates => exact viaRest (by simp only [FMI3.step, FMI3.setContinuousStates, FMI3.begin, beginFunction, rest, if_pos hd]) Iff.rfl
  case getDerivatives => exact viaRest (by simp only [FMI3.step, FMI3.getDerivatives, FMI3.begin, beginFunction, rest, if_pos hd]) Iff.rfl
  case getNumberOfContinuousStates =>
    exact viaRest (by simp only [FMI3.step, FMI3.getNumberOfContinuousStates, FMI3.begin, beginFunction, rest, show (model (F := F)).numContinuousStates w.inst.mv = 3 from hd.2.1]) Iff.rfl
  all_goals exact viaRest rfl Iff.rfl

end StateSpace
end Verif
