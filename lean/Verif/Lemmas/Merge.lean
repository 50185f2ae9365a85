import Verif.Spec.Merge

/-!
# Lemmas about the merge of FMUs
-/

namespace Verif.Merge

/-- `Holds` in terms of membership and uniqueness. -/
theorem holds_append {a b : Entries} {p : Path} {c : List UInt8} :
    Holds (a ++ b) p c ↔ Holds b p c ∨ (Holds a p c ∧ ∀ e ∈ b, e.1 ≠ p) := by
  constructor
  · rintro ⟨x, y, e, h⟩
    rcases List.append_eq_append_iff.1 e with ⟨as, rfl, rfl⟩ | ⟨bs, rfl, e2⟩
    · exact .inl ⟨as, y, rfl, h⟩
    · cases bs with
      | nil => exact .inl ⟨[], y, by simpa using e2.symm, h⟩
      | cons z zs =>
        simp only [List.cons_append, List.cons.injEq] at e2
        obtain ⟨rfl, rfl⟩ := e2
        exact .inr ⟨⟨x, zs, rfl, fun e he => h e (by simp [he])⟩, fun e he => h e (by simp [he])⟩
  · rintro (⟨x, y, rfl, h⟩ | ⟨⟨x, y, rfl, h⟩, hb⟩)
    · exact ⟨a ++ x, y, by simp, h⟩
    · refine ⟨x, y ++ b, by simp, fun e he => ?_⟩
      rcases List.mem_append.1 he with he | he
      · exact h e he
      · exact hb e he

theorem holds_nil {p : Path} {c : List UInt8} : ¬ Holds [] p c := by
  rintro ⟨x, y, e, -⟩; simp at e

theorem holds_single {p q : Path} {c d : List UInt8} : Holds [(q, d)] p c ↔ q = p ∧ d = c := by
  constructor
  · rintro ⟨x, y, e, -⟩
    cases x with
    | nil => simp at e; exact ⟨e.1.1, e.1.2⟩
    | cons z zs => simp at e
  · rintro ⟨rfl, rfl⟩; exact ⟨[], [], rfl, by simp⟩

theorem holds_cons {p q : Path} {c d : List UInt8} {a : Entries} :
    Holds ((q, d) :: a) p c ↔ Holds a p c ∨ ((q = p ∧ d = c) ∧ ∀ e ∈ a, e.1 ≠ p) := by
  have := @holds_append [(q, d)] a p c
  rw [holds_single] at this
  exact this

theorem Holds.mem {a : Entries} {p : Path} {c : List UInt8} (h : Holds a p c) : (p, c) ∈ a := by
  obtain ⟨x, y, rfl, -⟩ := h; simp

theorem exists_holds {a : Entries} {p : Path} : (∃ c, Holds a p c) ↔ ∃ e ∈ a, e.1 = p := by
  constructor
  · rintro ⟨c, h⟩; exact ⟨_, h.mem, rfl⟩
  · induction a with
    | nil => rintro ⟨e, he, -⟩; simp at he
    | cons z zs ih =>
      obtain ⟨q, d⟩ := z
      rintro ⟨e, he, hp⟩
      by_cases hz : ∃ e ∈ zs, e.1 = p
      · obtain ⟨c, hc⟩ := ih hz
        exact ⟨c, holds_cons.2 (.inl hc)⟩
      · have hz' : ∀ e ∈ zs, e.1 ≠ p := fun e he hp => hz ⟨e, he, hp⟩
        rcases List.mem_cons.1 he with rfl | he
        · exact ⟨d, holds_cons.2 (.inr ⟨⟨hp, rfl⟩, hz'⟩)⟩
        · exact absurd hp (hz' e he)

theorem Holds.unique {a : Entries} {p : Path} {c d : List UInt8} (h : Holds a p c) (h' : Holds a p d) : c = d := by
  induction a with
  | nil => exact absurd h holds_nil
  | cons z zs ih =>
    obtain ⟨q, x⟩ := z
    rcases holds_cons.1 h with h1 | ⟨⟨-, h1⟩, hn⟩ <;> rcases holds_cons.1 h' with h2 | ⟨⟨-, h2⟩, hn'⟩
    · exact ih h1 h2
    · exact absurd rfl (hn' _ h1.mem)
    · exact absurd rfl (hn _ h2.mem)
    · exact h1.symm.trans h2

theorem holds_filter {a : Entries} {p q : Path} {c : List UInt8} (hq : q ≠ p) :
    Holds (a.filter fun e => e.1 ≠ q) p c ↔ Holds a p c := by
  induction a with
  | nil => simp
  | cons z zs ih =>
    obtain ⟨r, d⟩ := z
    by_cases hr : r = q
    · subst hr
      rw [List.filter_cons_of_neg (by simp), ih, holds_cons]
      exact ⟨.inl, fun h => h.elim id fun h => absurd h.1.1 hq⟩
    · rw [List.filter_cons_of_pos (by simpa using hr), holds_cons, holds_cons, ih]
      refine or_congr Iff.rfl (and_congr Iff.rfl ⟨fun h e he hp => ?_, fun h e he => h e (List.mem_filter.1 he).1⟩)
      exact h e (List.mem_filter.2 ⟨he, by simpa [hp] using Ne.symm hq⟩) hp

theorem holds_write {dir : Entries} {p q : Path} {c d : List UInt8} :
    Holds (write dir q d) p c ↔ (q = p ∧ d = c) ∨ (q ≠ p ∧ Holds dir p c) := by
  rw [write, holds_append, holds_single]
  constructor
  · rintro (h | ⟨h, hn⟩)
    · exact .inl h
    · have hq : q ≠ p := hn _ (List.mem_singleton.2 rfl)
      exact .inr ⟨hq, (holds_filter hq).1 h⟩
  · rintro (h | ⟨hq, h⟩)
    · exact .inl h
    · exact .inr ⟨(holds_filter hq).2 h, fun e he => by rw [List.mem_singleton.1 he]; exact hq⟩

theorem holds_extractall {p : Path} {c : List UInt8} : ∀ {es dir : Entries},
    Holds (extractall dir es) p c ↔ Holds es p c ∨ (Holds dir p c ∧ ∀ e ∈ es, e.1 ≠ p)
  | [], dir => by simp [extractall, holds_nil]
  | (q, d) :: es, dir => by
    rw [extractall, holds_extractall, holds_write, holds_cons]
    constructor
    · rintro (h | ⟨h | ⟨hq, h⟩, hn⟩)
      · exact .inl (.inl h)
      · exact .inl (.inr ⟨h, hn⟩)
      · exact .inr ⟨h, fun e he => (List.mem_cons.1 he).elim (fun e' => e' ▸ hq) (hn e)⟩
    · rintro ((h | ⟨h, hn⟩) | ⟨h, hn⟩)
      · exact .inl h
      · exact .inr ⟨.inl h, hn⟩
      · exact .inr ⟨.inr ⟨hn _ List.mem_cons_self, h⟩, fun e he => hn e (List.mem_cons_of_mem _ he)⟩

theorem holds_read {dir : Entries} {p : Path} {c : List UInt8} (hu : ∀ d, (p, d) ∈ dir → d = c) (h : Holds dir p c) :
    read dir p = some c := by
  unfold read
  cases e : dir.find? fun e => e.1 = p with
  | none =>
    have := List.find?_eq_none.1 e _ h.mem
    simp at this
  | some z =>
    have h1 : z.1 = p := by simpa using List.find?_some e
    have h2 := List.mem_of_find?_eq_some e
    obtain ⟨q, d⟩ := z
    cases h1
    simp [hu d h2]

/-- No two files of a directory have the same name. -/
def Unique (dir : Entries) : Prop := ∀ p c d, (p, c) ∈ dir → (p, d) ∈ dir → c = d

theorem unique_write {dir : Entries} {q : Path} {d : List UInt8} (h : Unique dir) : Unique (write dir q d) := by
  intro p c c' h1 h2
  simp only [write, List.mem_append, List.mem_filter, List.mem_singleton, Prod.mk.injEq, decide_eq_true_eq] at h1 h2
  rcases h1 with ⟨h1, n1⟩ | ⟨rfl, rfl⟩ <;> rcases h2 with ⟨h2, n2⟩ | ⟨e, rfl⟩
  · exact h p c c' h1 h2
  · exact absurd e n1
  · exact absurd rfl n2
  · rfl

theorem unique_extractall : ∀ {es dir : Entries}, Unique dir → Unique (extractall dir es)
  | [], _, h => h
  | (p, c) :: es, dir, h => by
    rw [extractall]
    exact unique_extractall (unique_write h)

theorem unique_platforms {w : World} {f : List UInt8} : ∀ {ps : List Platform} {dir m : Entries}, Unique dir →
    extractPlatforms w f ps dir = some m → Unique m
  | [], _, _, h, e => by cases e; exact h
  | p :: ps, dir, m, h, e => by
    unfold extractPlatforms at e
    split at e
    · cases e
    · exact unique_platforms (unique_extractall h) e

/-- A file after the extraction is a file of one of the FMUs, or was there before. -/
theorem holds_platforms {w : World} {f : List UInt8} {p : Path} {c : List UInt8} : ∀ {ps : List Platform} {dir m : Entries},
    extractPlatforms w f ps dir = some m → Holds m p c → (∃ pl ∈ ps, ∃ a, w.fmu pl f = some a ∧ Holds a p c) ∨ Holds dir p c
  | [], _, _, e, h => by cases e; exact .inr h
  | pl :: ps, dir, m, e, h => by
    unfold extractPlatforms at e
    split at e
    · cases e
    · next a ha =>
      rcases holds_platforms e h with ⟨pl', h1, h2⟩ | h
      · exact .inl ⟨pl', List.mem_cons_of_mem _ h1, h2⟩
      · rcases holds_extractall.1 h with h | h
        · exact .inl ⟨pl, List.mem_cons_self, a, ha, h⟩
        · exact .inr h.1

/-- All FMUs are there, and every file of each of them is there after the extraction. -/
theorem platforms_holds {w : World} {f : List UInt8} {p : Path} : ∀ {ps : List Platform} {dir m : Entries},
    extractPlatforms w f ps dir = some m → ((∃ c, Holds dir p c) → ∃ c, Holds m p c) ∧
      ∀ pl ∈ ps, ∃ a, w.fmu pl f = some a ∧ ((∃ c, Holds a p c) → ∃ c, Holds m p c)
  | [], _, _, e => by cases e; simp
  | pl :: ps, dir, m, e => by
    unfold extractPlatforms at e
    split at e
    · cases e
    · next a ha =>
      obtain ⟨h1, h2⟩ := platforms_holds (p := p) e
      have hx : ((∃ c, Holds a p c) ∨ ∃ c, Holds dir p c) → ∃ c, Holds (extractall dir a) p c := by
        intro h
        by_cases hn : ∃ e ∈ a, e.1 = p
        · obtain ⟨c, hc⟩ := exists_holds.2 hn
          exact ⟨c, holds_extractall.2 (.inl hc)⟩
        · rcases h with h | ⟨c, hc⟩
          · exact absurd (exists_holds.1 h) hn
          · exact ⟨c, holds_extractall.2 (.inr ⟨hc, fun e he hp => hn ⟨e, he, hp⟩⟩)⟩
      refine ⟨fun h => h1 (hx (.inr h)), fun q hq => ?_⟩
      rcases List.mem_cons.1 hq with rfl | hq
      · exact ⟨a, ha, fun h => h1 (hx (.inl h))⟩
      · exact h2 q hq

theorem replace_skip {old new : List UInt8} : ∀ (x r : List UInt8), replace old new x.length (x ++ r) = replace old new 0 r
  | [], r => rfl
  | _ :: x, r => by simpa [replace] using replace_skip x r

theorem replace_none {old new : List UInt8} : ∀ {t : List UInt8}, (∀ x y, t ≠ x ++ old ++ y) → replace old new 0 t = t
  | [], _ => by simp [replace]
  | c :: r, h => by
    have hp : old.isPrefixOf (c :: r) = false := by
      rw [Bool.eq_false_iff]
      intro hp
      obtain ⟨y, hy⟩ := List.isPrefixOf_iff_prefix.1 hp
      exact h [] y (by simpa using hy.symm)
    rw [replace, hp, if_neg (by simp), replace_none fun x y e => h (c :: x) y (by simp [e])]

theorem replace_once {old new : List UInt8} (h0 : old ≠ []) : ∀ {before after t : List UInt8}, Once t before old after →
    replace old new 0 t = before ++ new ++ after
  | [], after, t, ⟨e, h⟩ => by
    obtain ⟨o, os, rfl⟩ := List.exists_cons_of_ne_nil h0
    subst e
    have hp : (o :: os).isPrefixOf (o :: (os ++ after)) = true := List.isPrefixOf_iff_prefix.2 ⟨after, by simp⟩
    simp only [List.nil_append, List.cons_append]
    rw [replace, hp, if_pos rfl]
    simp only [List.length_cons, Nat.add_sub_cancel]
    rw [replace_skip, replace_none]
    intro x y e
    have := h (o :: os ++ x) y (by simp [e])
    simp at this
  | c :: before, after, t, ⟨e, h⟩ => by
    subst e
    have hp : old.isPrefixOf (c :: (before ++ old ++ after)) = false := by
      rw [Bool.eq_false_iff]
      intro hp
      obtain ⟨y, hy⟩ := List.isPrefixOf_iff_prefix.1 hp
      have := h [] y (by simpa using hy.symm)
      simp at this
    simp only [List.cons_append]
    rw [replace, hp, if_neg (by simp), replace_once h0 ⟨rfl, fun x y e => ?_⟩]
    have := h (c :: x) y (by simp [e])
    simpa using this

theorem universal_id : ∀ {t : List UInt8}, 13 ∉ t → universal t = t := by
  intro t h
  induction t with
  | nil => rfl
  | cons c r ih =>
    have hc : c ≠ 13 := fun e => h (by simp [e])
    have hr := ih fun e => h (by simp [e])
    unfold universal
    split
    · simp_all
    · simp_all
    · simp_all
    · simp_all

theorem strip_word {v : List UInt8} (h0 : v ≠ []) (h : ∀ c ∈ v, 32 < c) : strip (v ++ [10]) = v := by
  have hs : ∀ c ∈ v, isSpace c = false := by
    intro c hc
    have := h c hc
    simp only [isSpace, Bool.or_eq_false_iff, decide_eq_false_iff_not]
    rw [UInt8.lt_iff_toNat_lt] at this
    simp only [UInt8.le_iff_toNat_le]
    constructor <;> rintro ⟨-, h⟩ <;> simp at this h <;> omega
  obtain ⟨a, r, rfl⟩ := List.exists_cons_of_ne_nil h0
  unfold strip
  rw [List.cons_append, List.dropWhile_cons_of_neg (by simp [hs a]), ← List.cons_append, List.reverse_append]
  rw [show ([10] : List UInt8).reverse = [10] from rfl, List.singleton_append, List.dropWhile_cons_of_pos (by decide)]
  obtain ⟨l, z, e⟩ : ∃ l z, a :: r = l ++ [z] := ⟨(a :: r).dropLast, (a :: r).getLast (by simp), (List.dropLast_concat_getLast _).symm⟩
  have hz : isSpace z = false := hs z (by rw [e]; simp)
  rw [e, List.reverse_append, List.reverse_singleton, List.singleton_append, List.dropWhile_cons_of_neg (by simp [hz])]
  simp

end Verif.Merge
