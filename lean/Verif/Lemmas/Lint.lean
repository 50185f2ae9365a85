import Verif.Spec.Lint

/-!
# Lemmas about the script that checks the source files
-/

namespace Verif.Lint

theorem universal_noReturn : ∀ t : List Char, '\r' ∉ universal t := by
  intro t
  induction t using universal.induct with
  | case1 => simp [universal]
  | case2 r ih => simp [universal, ih]
  | case3 r h ih => rw [universal]; simp [ih]; exact h
  | case4 c r h1 h2 ih =>
    rw [universal]
    · simp only [List.mem_cons, not_or]; exact ⟨fun h => h2 h.symm, ih⟩
    all_goals assumption

theorem universal_id : ∀ {t : List Char}, '\r' ∉ t → universal t = t := by
  intro t
  induction t using universal.induct with
  | case1 => intro _; rfl
  | case2 r ih => intro h; simp at h
  | case3 r _ ih => intro h; simp at h
  | case4 c r h1 h2 ih =>
    intro h
    rw [universal]
    · rw [ih (fun h' => h (by simp [h']))]
    all_goals assumption

theorem ink_universal : ∀ t : List Char, ink (universal t) = ink t := by
  intro t
  have hn : isSpace '\n' = true := by decide
  have hr : isSpace '\r' = true := by decide
  unfold ink
  induction t using universal.induct with
  | case1 => rfl
  | case2 r ih => simp [universal, ih, hn, hr]
  | case3 r h ih => rw [universal]; simp [ih, hn, hr]; exact h
  | case4 c r h1 h2 ih =>
    rw [universal]
    · simp only [List.filter_cons, ih]
    all_goals assumption

theorem lines_flatten : ∀ t : List Char, (lines t).flatten = t := by
  intro t
  induction t with
  | nil => rfl
  | cons c r ih =>
    rw [lines]
    split
    · simp [ih]
    · split
      · next h => rw [h] at ih; simp [← ih]
      · next l ls h => rw [h] at ih; simp [← ih]

theorem lines_line {b : List Char} (hb : '\n' ∉ b) (r : List Char) : lines (b ++ '\n' :: r) = (b ++ ['\n']) :: lines r := by
  induction b with
  | nil => simp [lines]
  | cons c b ih =>
    simp only [List.mem_cons, not_or] at hb
    simp only [List.cons_append]
    rw [lines, if_neg (fun h => hb.1 h.symm), ih hb.2]

theorem lines_last {b : List Char} (hb : '\n' ∉ b) (h0 : b ≠ []) : lines b = [b] := by
  induction b with
  | nil => exact absurd rfl h0
  | cons c b ih =>
    simp only [List.mem_cons, not_or] at hb
    rw [lines, if_neg (fun h => hb.1 h.symm)]
    cases b with
    | nil => rfl
    | cons d b => rw [ih hb.2 (by simp)]

/-- A line ends with its only line end, or has none. -/
theorem mem_lines {l : List Char} : ∀ {t : List Char}, l ∈ lines t → ∃ b, '\n' ∉ b ∧ (l = b ∨ l = b ++ ['\n']) := by
  intro t
  induction t generalizing l with
  | nil => intro h; simp [lines] at h
  | cons c r ih =>
    intro h
    rw [lines] at h
    split at h
    · next hc =>
      rcases List.mem_cons.1 h with rfl | h
      · exact ⟨[], by simp, .inr (by simp [hc])⟩
      · exact ih h
    · next hc =>
      split at h
      · simp only [List.mem_cons, List.not_mem_nil, or_false] at h
        exact ⟨[c], by simp [Ne.symm hc], .inl h⟩
      · next l' ls he =>
        rcases List.mem_cons.1 h with rfl | h
        · obtain ⟨b, hb, h'⟩ := ih (l := l') (by simp [he])
          refine ⟨c :: b, by simp [Ne.symm hc, hb], ?_⟩
          rcases h' with rfl | rfl
          · exact .inl rfl
          · exact .inr rfl
        · exact ih (by simp [he, h])

theorem lines_eq_nil {t : List Char} : lines t = [] ↔ t = [] := by
  constructor
  · intro h; rw [← lines_flatten t, h]; rfl
  · rintro rfl; rfl

theorem universal_eq_nil {t : List Char} : universal t = [] ↔ t = [] := by
  constructor
  · intro h
    unfold universal at h
    split at h <;> simp_all
  · rintro rfl; rfl

/-! ### One line -/

theorem rstrip_append_space {b : List Char} {c : Char} (h : isSpace c = true) : rstrip (b ++ [c]) = rstrip b := by
  simp [rstrip, h]

theorem rstrip_keep {b : List Char} {c : Char} (h : isSpace c = false) : rstrip (b ++ [c]) = b ++ [c] := by
  simp [rstrip, h]

theorem rstrip_nil : rstrip [] = [] := rfl

/-- Induction from the end of a list. -/
theorem rev_induct {P : List Char → Prop} (h0 : P []) (h1 : ∀ b c, P b → P (b ++ [c])) (l : List Char) : P l := by
  have : ∀ r : List Char, P r.reverse := by
    intro r
    induction r with
    | nil => exact h0
    | cons c r ih => rw [List.reverse_cons]; exact h1 _ _ ih
  simpa using this l.reverse

/-- What remains is empty or ends with a character that is not white space. -/
theorem rstrip_shape (l : List Char) : rstrip l = [] ∨ ∃ b c, rstrip l = b ++ [c] ∧ isSpace c = false := by
  refine rev_induct (P := fun l => rstrip l = [] ∨ ∃ b c, rstrip l = b ++ [c] ∧ isSpace c = false) (.inl rfl) (fun b c ih => ?_) l
  cases h : isSpace c with
  | true => rw [rstrip_append_space h]; exact ih
  | false => rw [rstrip_keep h]; exact .inr ⟨b, c, rfl, h⟩

theorem rstrip_mem {l : List Char} : ∀ c ∈ rstrip l, c ∈ l := by
  refine rev_induct (P := fun l => ∀ c ∈ rstrip l, c ∈ l) (fun _ h => h) (fun b c ih => ?_) l
  cases h : isSpace c with
  | true => rw [rstrip_append_space h]; exact fun x hx => List.mem_append_left _ (ih x hx)
  | false => rw [rstrip_keep h]; exact fun x hx => hx

theorem ink_append (a b : List Char) : ink (a ++ b) = ink a ++ ink b := List.filter_append ..

theorem ink_rstrip (l : List Char) : ink (rstrip l) = ink l := by
  refine rev_induct (P := fun l => ink (rstrip l) = ink l) rfl (fun b c ih => ?_) l
  cases h : isSpace c with
  | true => rw [rstrip_append_space h, ih, ink_append]; simp [ink, h]
  | false => rw [rstrip_keep h]

theorem expand_append (a b : List Char) : expand (a ++ b) = expand a ++ expand b := List.flatMap_append ..

theorem expand_id {l : List Char} (h : '\t' ∉ l) : expand l = l := by
  induction l with
  | nil => rfl
  | cons c l ih =>
    simp only [List.mem_cons, not_or] at h
    have := ih h.2
    simp only [expand, List.flatMap_cons] at this ⊢
    rw [if_neg (fun e => h.1 e.symm), this]
    rfl

theorem expand_mem {l : List Char} {c : Char} (h : c ∈ expand l) : c = ' ' ∨ c ∈ l ∧ c ≠ '\t' := by
  simp only [expand, List.mem_flatMap] at h
  obtain ⟨d, hd, h⟩ := h
  split at h
  · left; simpa using h
  · next hn =>
    simp only [List.mem_cons, List.not_mem_nil, or_false] at h
    subst h; exact .inr ⟨hd, hn⟩

theorem ink_expand (l : List Char) : ink (expand l) = ink l := by
  have hs : isSpace ' ' = true := by decide
  have ht : isSpace '\t' = true := by decide
  induction l with
  | nil => rfl
  | cons c l ih =>
    have e : expand (c :: l) = (if c = '\t' then [' ', ' ', ' ', ' '] else [c]) ++ expand l := rfl
    have e' : ink (c :: l) = ink [c] ++ ink l := ink_append [c] l
    rw [e, e', ink_append, ih]
    congr 1
    split
    · next h => subst h; simp [ink, hs, ht]
    · rfl

/-- A repaired line: its text `b` and the line end. -/
structure Neat (b : List Char) : Prop where
  noTab : '\t' ∉ b
  noReturn : '\r' ∉ b
  noEnd : '\n' ∉ b
  last : b = [] ∨ ∃ b' c, b = b' ++ [c] ∧ isSpace c = false

theorem fixLine_eq (l : List Char) : fixLine l = expand (rstrip l) ++ ['\n'] := by
  rw [fixLine, expand_append]; rfl

theorem neat_fix {t l : List Char} (hl : l ∈ lines t) (ht : '\r' ∉ t) : Neat (expand (rstrip l)) := by
  have hsub : ∀ c ∈ l, c ∈ t := fun c hc => by
    rw [← lines_flatten t]; exact List.mem_flatten.2 ⟨l, hl, hc⟩
  refine ⟨fun h => ?_, fun h => ?_, fun h => ?_, ?_⟩
  · rcases expand_mem h with h | h
    · exact absurd h (by decide)
    · exact h.2 rfl
  · rcases expand_mem h with h | h
    · exact absurd h (by decide)
    · exact ht (hsub _ (rstrip_mem _ h.1))
  · rcases expand_mem h with h | h
    · exact absurd h (by decide)
    · obtain ⟨b, hb, rfl | rfl⟩ := mem_lines hl
      · exact hb (rstrip_mem _ h.1)
      · rw [rstrip_append_space (by decide)] at h
        exact hb (rstrip_mem _ h.1)
  · rcases rstrip_shape l with h | ⟨b, c, h, hc⟩
    · left; rw [h]; rfl
    · right
      have hct : c ≠ '\t' := by rintro rfl; exact absurd hc (by decide)
      refine ⟨expand b, c, ?_, hc⟩
      rw [h, expand_append]
      congr 1
      exact expand_id (by simp [Ne.symm hct])

theorem neat_idem {b : List Char} (h : Neat b) : fixLine (b ++ ['\n']) = b ++ ['\n'] := by
  rw [fixLine_eq, rstrip_append_space (by decide)]
  have : rstrip b = b := by
    rcases h.last with rfl | ⟨b', c, rfl, hc⟩
    · rfl
    · exact rstrip_keep hc
  rw [this, expand_id h.noTab]

theorem neat_lint {b : List Char} (h : Neat b) : lintLine (b ++ ['\n']) =
    if (b ++ ['\n']).all (fun c => c.toNat < 128) then [] else [.nonASCII] := by
  have h1 : (b ++ ['\n']).dropLast.getLast? ≠ some ' ' := by
    rw [List.dropLast_concat]
    rcases h.last with rfl | ⟨b', c, rfl, hc⟩
    · simp
    · rw [List.getLast?_concat]
      rintro e
      cases e
      exact absurd hc (by decide)
  have h2 : '\t' ∉ b ++ ['\n'] := by simp [h.noTab]
  have h3 : '\r' ∉ b ++ ['\n'] := by simp [h.noReturn]
  rw [lintLine, if_neg h1, if_neg h2, if_neg h3]
  simp

/-! ### The whole text -/

/-- A text from its lines. -/
def join (bs : List (List Char)) : List Char := bs.flatMap fun b => b ++ ['\n']

theorem lines_join {bs : List (List Char)} (h : ∀ b ∈ bs, '\n' ∉ b) : lines (join bs) = bs.map fun b => b ++ ['\n'] := by
  induction bs with
  | nil => rfl
  | cons b bs ih =>
    have e : join (b :: bs) = b ++ '\n' :: join bs := by simp [join]
    rw [e, lines_line (h b (by simp)), ih fun b hb => h b (by simp [hb])]
    rfl

theorem fixFile_eq {t t' : List Char} (e : fixFile t = some t') :
    ∃ bs, t' = join bs ∧ (∀ b ∈ bs, Neat b) ∧ bs = (lines (universal t)).map fun l => expand (rstrip l) := by
  refine ⟨_, ?_, ?_, rfl⟩
  · unfold fixFile at e
    split at e
    · cases e
    · cases e
      simp only [join, List.flatMap_map]
      rw [show fixLine = fun l => expand (rstrip l) ++ ['\n'] from funext fixLine_eq]
  · intro b hb
    obtain ⟨l, hl, rfl⟩ := List.mem_map.1 hb
    exact neat_fix hl (universal_noReturn t)

theorem join_noReturn {bs : List (List Char)} (h : ∀ b ∈ bs, Neat b) : '\r' ∉ join bs := by
  simp only [join, List.mem_flatMap, List.mem_append, List.mem_cons, List.not_mem_nil, or_false, not_exists, not_and, not_or]
  exact fun b hb => ⟨(h b hb).noReturn, by decide⟩

theorem join_noTab {bs : List (List Char)} (h : ∀ b ∈ bs, Neat b) : '\t' ∉ join bs := by
  simp only [join, List.mem_flatMap, List.mem_append, List.mem_cons, List.not_mem_nil, or_false, not_exists, not_and, not_or]
  exact fun b hb => ⟨(h b hb).noTab, by decide⟩

/-- A space before a line end is the last character of a line. -/
theorem split_line {b r before after : List Char} (hb : '\n' ∉ b) (e : b ++ '\n' :: r = before ++ ' ' :: '\n' :: after) :
    (b = before ++ [' ']) ∨ ∃ before', r = before' ++ ' ' :: '\n' :: after := by
  rcases List.append_eq_append_iff.1 e with ⟨a, h1, h2⟩ | ⟨a, h1, h2⟩
  · -- `before = b ++ a`
    cases a with
    | nil => simp at h2
    | cons x a =>
      simp only [List.cons_append, List.cons.injEq] at h2
      exact .inr ⟨a, h2.2⟩
  · -- `b = before ++ a`
    cases a with
    | nil => simp at h2
    | cons x a =>
      simp only [List.cons_append, List.cons.injEq] at h2
      obtain ⟨rfl, h2⟩ := h2
      cases a with
      | nil => left; exact h1
      | cons y a =>
        simp only [List.cons_append, List.cons.injEq] at h2
        obtain ⟨rfl, -⟩ := h2
        exact absurd (by rw [h1]; simp) hb

/-- No line of the text ends with a space. -/
theorem noSpace_join {bs : List (List Char)} (hn : ∀ b ∈ bs, '\n' ∉ b) :
    (∀ before after, join bs ≠ before ++ ' ' :: '\n' :: after) ↔ ∀ b ∈ bs, b.getLast? ≠ some ' ' := by
  constructor
  · intro h b hb e
    obtain ⟨pre, post, rfl⟩ := List.append_of_mem hb
    obtain ⟨b', rfl⟩ := List.getLast?_eq_some_iff.1 e
    refine h (join pre ++ b') (join post) ?_
    simp [join]
  · induction bs with
    | nil => intro _ b a e; simp [join] at e
    | cons b bs ih =>
      intro h before after e
      have e' : b ++ '\n' :: join bs = before ++ ' ' :: '\n' :: after := by rw [← e]; simp [join]
      rcases split_line (hn b (by simp)) e' with hb | ⟨before', e2⟩
      · exact h b (by simp) (by rw [hb]; simp)
      · exact ih (fun b hb => hn b (by simp [hb])) (fun b hb => h b (by simp [hb])) _ _ e2

theorem tidy_join {bs : List (List Char)} (h : ∀ b ∈ bs, Neat b) : Tidy (join bs) := by
  refine ⟨join_noTab h, join_noReturn h, (noSpace_join fun b hb => (h b hb).noEnd).2 fun b hb e => ?_⟩
  rcases (h b hb).last with rfl | ⟨b', c, rfl, hc⟩
  · simp at e
  · rw [List.getLast?_concat] at e
    cases e
    exact absurd hc (by decide)

theorem ended_join (bs : List (List Char)) : Ended (join bs) := by
  induction bs with
  | nil => exact .inl rfl
  | cons b bs ih =>
    right
    have e : join (b :: bs) = b ++ ('\n' :: join bs) := by simp [join]
    rw [e, List.getLast?_append]
    rcases ih with h | h
    · simp [h]
    · simp [List.getLast?_cons, h]

/-- A text whose last line has a line end is made of such lines. -/
theorem of_ended : ∀ {t : List Char}, Ended t → ∃ bs, t = join bs ∧ ∀ b ∈ bs, '\n' ∉ b := by
  intro t
  induction t with
  | nil => intro _; exact ⟨[], rfl, by simp⟩
  | cons c r ih =>
    intro h
    have hr : r = [] ∧ c = '\n' ∨ Ended r := by
      rcases h with h | h
      · cases h
      · cases r with
        | nil => left; simpa using h
        | cons d r => right; right; simpa using h
    by_cases hc : c = '\n'
    · have hr' : Ended r := by
        rcases hr with ⟨rfl, -⟩ | h
        · exact .inl rfl
        · exact h
      obtain ⟨bs, rfl, hb⟩ := ih hr'
      exact ⟨[] :: bs, by simp [join, hc], by simpa using hb⟩
    · rcases hr with ⟨-, h⟩ | hr
      · exact absurd h hc
      · obtain ⟨bs, rfl, hb⟩ := ih hr
        cases bs with
        | nil =>
          rcases h with h | h
          · cases h
          · simp [join, hc] at h
        | cons b bs =>
          refine ⟨(c :: b) :: bs, by simp [join], ?_⟩
          intro x hx
          rcases List.mem_cons.1 hx with rfl | hx
          · simp only [List.mem_cons, not_or]
            exact ⟨fun e => hc e.symm, hb b (by simp)⟩
          · exact hb x (by simp [hx])

theorem ink_join {bs : List (List Char)} : ink (join bs) = bs.flatMap ink := by
  induction bs with
  | nil => rfl
  | cons b bs ih =>
    have e : join (b :: bs) = b ++ ['\n'] ++ join bs := by simp [join]
    have hn : ink ['\n'] = [] := by decide
    rw [e, ink_append, ink_append, ih, hn]
    simp

theorem ink_fix {t t' : List Char} (e : fixFile t = some t') : ink t' = ink t := by
  obtain ⟨bs, rfl, -, rfl⟩ := fixFile_eq e
  rw [ink_join, ← ink_universal t]
  conv => rhs; rw [← lines_flatten (universal t)]
  generalize lines (universal t) = ls
  induction ls with
  | nil => rfl
  | cons l ls ih => simp only [List.map_cons, List.flatMap_cons, List.flatten_cons, ink_append, ih, ink_expand, ink_rstrip]

theorem fix_again {bs : List (List Char)} (h : ∀ b ∈ bs, Neat b) (h0 : bs ≠ []) : fixFile (join bs) = some (join bs) := by
  unfold fixFile
  rw [universal_id (join_noReturn h), lines_join fun b hb => (h b hb).noEnd]
  split
  · next e => exact absurd (List.map_eq_nil_iff.1 e) h0
  · next e =>
    rw [List.flatMap_map, join]
    congr 1
    clear h0 e
    induction bs with
    | nil => rfl
    | cons b bs ih =>
      simp only [List.flatMap_cons]
      rw [neat_idem (h b (by simp)), ih fun b hb => h b (by simp [hb])]

/-! ### The checks -/

theorem lintLines_nil {ls : List (List Char)} : ∀ {i : Nat}, lintLines i ls = [] ↔ ∀ l ∈ ls, lintLine l = [] := by
  induction ls with
  | nil => intro i; simp [lintLines]
  | cons l ls ih => intro i; simp [lintLines, ih]

theorem lintLine_nil {l : List Char} : lintLine l = [] ↔
    (∀ c ∈ l, c.toNat < 128) ∧ l.dropLast.getLast? ≠ some ' ' ∧ '\t' ∉ l ∧ '\r' ∉ l := by
  unfold lintLine
  constructor
  · intro h
    simp only [List.append_eq_nil_iff] at h
    obtain ⟨⟨⟨h1, h2⟩, h3⟩, h4⟩ := h
    refine ⟨?_, fun e => ?_, fun e => ?_, fun e => ?_⟩
    · split at h1
      · next h => simpa using h
      · cases h1
    · rw [if_pos e] at h2; cases h2
    · rw [if_pos e] at h3; cases h3
    · rw [if_pos e] at h4; cases h4
  · rintro ⟨h1, h2, h3, h4⟩
    rw [if_neg h2, if_neg h3, if_neg h4, if_pos (by simpa using h1)]
    rfl

theorem isASCII_universal {t : List Char} : IsASCII (universal t) → IsASCII t := by
  unfold IsASCII
  induction t using universal.induct with
  | case1 => exact fun h => h
  | case2 r ih =>
    simp only [universal, List.forall_mem_cons]
    exact fun h => ⟨by decide, by decide, ih h.2⟩
  | case3 r h ih =>
    rw [universal]
    · simp only [List.forall_mem_cons]
      exact fun h => ⟨by decide, ih h.2⟩
    · exact h
  | case4 c r h1 h2 ih =>
    rw [universal]
    · simp only [List.forall_mem_cons]
      exact fun h => ⟨h.1, ih h.2⟩
    all_goals assumption

theorem isASCII_of_lint {t : List Char} (h : lintFile t = []) : IsASCII t := by
  apply isASCII_universal
  intro c hc
  rw [← lines_flatten (universal t)] at hc
  obtain ⟨l, hl, hc⟩ := List.mem_flatten.1 hc
  exact (lintLine_nil.1 (lintLines_nil.1 h l hl)).1 c hc

theorem lint_join {bs : List (List Char)} (h : ∀ b ∈ bs, '\n' ∉ b) (hr : '\r' ∉ join bs) :
    lintFile (join bs) = lintLines 0 (bs.map fun b => b ++ ['\n']) := by
  rw [lintFile, universal_id hr, lines_join h]

theorem foreign_zero {t : List Char} : foreign t = 0 ↔ IsASCII t := by
  simp [foreign, IsASCII, List.filter_eq_nil_iff]

theorem lint_neat {bs : List (List Char)} (h : ∀ b ∈ bs, Neat b) : ∀ i,
    (∀ m ∈ lintLines i (bs.map fun b => b ++ ['\n']), m.1 = .nonASCII) ∧
    (lintLines i (bs.map fun b => b ++ ['\n'])).length ≤ foreign (join bs) ∧
    (lintLines i (bs.map fun b => b ++ ['\n']) = [] → foreign (join bs) = 0) := by
  induction bs with
  | nil => intro i; simp [lintLines, join, foreign]
  | cons b bs ih =>
    intro i
    obtain ⟨h1, h2, h3⟩ := ih (fun b hb => h b (by simp [hb])) (i + 1)
    have e : foreign (join (b :: bs)) = foreign (b ++ ['\n']) + foreign (join bs) := by
      simp [foreign, join]
    simp only [List.map_cons, lintLines, neat_lint (h b (by simp))]
    split
    · next ha =>
      have : foreign (b ++ ['\n']) = 0 := foreign_zero.2 fun c hc => of_decide_eq_true (List.all_eq_true.1 ha c hc)
      rw [e, this, Nat.zero_add]
      exact ⟨h1, h2, h3⟩
    · next ha =>
      have : 1 ≤ foreign (b ++ ['\n']) := by
        refine Nat.one_le_iff_ne_zero.2 fun h0 => ha ?_
        exact List.all_eq_true.2 fun c hc => decide_eq_true (foreign_zero.1 h0 c hc)
      refine ⟨?_, ?_, ?_⟩
      · simpa using h1
      · rw [e]; simp; omega
      · simp

/-! ### The repair -/

theorem expand_tabs (a : List Char) : Tabs a (expand a) := by
  induction a with
  | nil => exact .nil
  | cons c a ih =>
    have e : expand (c :: a) = (if c = '\t' then [' ', ' ', ' ', ' '] else [c]) ++ expand a := rfl
    rw [e]
    split
    · next h => subst h; exact .tab ih
    · next h => exact .other h ih

theorem rstrip_split (l : List Char) : ∃ t, l = rstrip l ++ t ∧ ∀ c ∈ t, isSpace c = true := by
  refine rev_induct (P := fun l => ∃ t, l = rstrip l ++ t ∧ ∀ c ∈ t, isSpace c = true) ⟨[], rfl, by simp⟩ (fun b c ih => ?_) l
  cases h : isSpace c with
  | true =>
    obtain ⟨t, e, ht⟩ := ih
    rw [rstrip_append_space h]
    refine ⟨t ++ [c], ?_, ?_⟩
    · rw [← List.append_assoc, ← e]
    · intro d hd
      rcases List.mem_append.1 hd with hd | hd
      · exact ht d hd
      · simp only [List.mem_cons, List.not_mem_nil, or_false] at hd; rw [hd]; exact h
  | false => rw [rstrip_keep h]; exact ⟨[], by simp, by simp⟩

theorem rstrip_last {l : List Char} {c : Char} (h : (rstrip l).getLast? = some c) : isSpace c = false := by
  rcases rstrip_shape l with e | ⟨b, d, e, hd⟩
  · rw [e] at h; simp at h
  · rw [e, List.getLast?_concat] at h; cases h; exact hd

/-- The text up to the first line end. -/
theorem first_line (t : List Char) : ∃ l r, t = l ++ r ∧ (∀ c ∈ l, c ≠ '\n' ∧ c ≠ '\r') ∧
    (r = [] ∨ (∃ s, r = '\n' :: s) ∨ ∃ s, r = '\r' :: s) := by
  induction t with
  | nil => exact ⟨[], [], rfl, by simp, .inl rfl⟩
  | cons c t ih =>
    by_cases h1 : c = '\n'
    · subst h1; exact ⟨[], _, rfl, by simp, .inr (.inl ⟨t, rfl⟩)⟩
    · by_cases h2 : c = '\r'
      · subst h2; exact ⟨[], _, rfl, by simp, .inr (.inr ⟨t, rfl⟩)⟩
      · obtain ⟨l, r, rfl, hl, hr⟩ := ih
        refine ⟨c :: l, r, rfl, ?_, hr⟩
        intro d hd
        rcases List.mem_cons.1 hd with rfl | hd
        · exact ⟨h1, h2⟩
        · exact hl d hd

theorem universal_append {l : List Char} (hl : ∀ c ∈ l, c ≠ '\n' ∧ c ≠ '\r') (r : List Char) : universal (l ++ r) = l ++ universal r := by
  induction l with
  | nil => rfl
  | cons c l ih =>
    have hc := (hl c (by simp)).2
    rw [List.cons_append, universal, ih fun d hd => hl d (by simp [hd])]
    · rfl
    · intro _ h; exact absurd h hc
    · intro h; exact absurd h hc

theorem repair_line {l e rest rest' : List Char} (hl : ∀ c ∈ l, c ≠ '\n' ∧ c ≠ '\r') (he : LineEnd e rest) (h0 : l ++ e ≠ [])
    (hr : Repair rest rest') : Repair (l ++ (e ++ rest)) (expand (rstrip l) ++ '\n' :: rest') := by
  obtain ⟨t, et, ht⟩ := rstrip_split l
  have key := Repair.line (a := rstrip l) (t := t) (e := e) (a' := expand (rstrip l)) (rest := rest) (rest' := rest')
    (by rw [← et]; exact hl) (fun c h => rstrip_last h) ht he (by rw [← et]; exact h0) (expand_tabs _) hr
  rw [← et] at key
  rwa [List.append_assoc] at key

/-- The new text. -/
def fixText (t : List Char) : List Char := (lines (universal t)).flatMap fixLine

theorem fixText_line {l r s : List Char} (hl : ∀ c ∈ l, c ≠ '\n' ∧ c ≠ '\r') (h : universal r = '\n' :: universal s) :
    fixText (l ++ r) = expand (rstrip l) ++ '\n' :: fixText s := by
  unfold fixText
  rw [universal_append hl, h, lines_line (fun hc => (hl _ hc).1 rfl), List.flatMap_cons, fixLine_eq, rstrip_append_space (by decide)]
  simp

theorem repair_fixText : ∀ (n : Nat) (t : List Char), t.length ≤ n → Repair t (fixText t) := by
  intro n
  induction n with
  | zero =>
    intro t h
    rw [List.eq_nil_of_length_eq_zero (Nat.le_zero.1 h)]
    exact .nil
  | succ n ih =>
    intro t h
    obtain ⟨l, r, rfl, hl, hr⟩ := first_line t
    rw [List.length_append] at h
    rcases hr with rfl | ⟨s, rfl⟩ | ⟨s, rfl⟩
    · cases l with
      | nil => exact .nil
      | cons c l =>
        have hn : '\n' ∉ c :: l := fun hc => (hl _ hc).1 rfl
        have e : fixText (c :: l ++ []) = expand (rstrip (c :: l)) ++ '\n' :: [] := by
          unfold fixText
          rw [universal_append hl, universal, List.append_nil, lines_last hn (by simp), List.flatMap_cons, fixLine_eq]
          simp
        rw [e]
        exact repair_line (e := []) hl .eof (by simp) .nil
    · rw [fixText_line (s := s) hl (by simp [universal])]
      exact repair_line (e := ['\n']) hl .lf (by simp) (ih s (by simp at h; omega))
    · cases s with
      | nil =>
        rw [fixText_line (s := []) hl (by simp [universal])]
        exact repair_line (e := ['\r']) (rest := []) hl (.cr (by simp)) (by simp) .nil
      | cons d s =>
        by_cases hd : d = '\n'
        · subst hd
          rw [fixText_line (s := s) hl (by simp [universal])]
          exact repair_line (e := ['\r', '\n']) hl .crlf (by simp) (ih s (by simp at h; omega))
        · rw [fixText_line (s := d :: s) hl (by
            rw [universal]
            intro _ h
            cases h
            exact hd rfl)]
          exact repair_line (e := ['\r']) (rest := d :: s) hl (.cr (by simp [hd])) (by simp) (ih (d :: s) (by simp at h ⊢; omega))

theorem repair_fix {t t' : List Char} (e : fixFile t = some t') : Repair t t' := by
  have : t' = fixText t := by
    unfold fixFile at e
    unfold fixText
    split at e
    · cases e
    · cases e; rfl
  rw [this]
  exact repair_fixText t.length t (Nat.le_refl _)

end Verif.Lint
