import Verif.Lemmas.Lint

/-!
# C90: the script that checks the source files

`C90_repaired`: a file with problems becomes tidy, and only its white space changes. `C90_accepts_partial`: which files have no problems.
`C90_script_partial`: the whole run. The script does not notice carriage returns (`C90_violated_return`) and a space at the end of a last line
without line end (`C90_violated_last`), reports a space that is not at the end of such a line (`C90_violated_alarm`), and its exit status is 0
for 256 problems (`C90_violated_status`).
-/

namespace Verif.Lint

/-- **C90**: a file in which the script finds a problem is repaired: no tabs, no carriage returns, no spaces at the ends of lines, and the last line has a
line end. All characters that are not white space stay as they are, in the same order, and so does the white space
between them (`Repair`). Only characters that are not ASCII remain as problems.
Another repair would change nothing. -/
theorem C90_repaired {text : List Char} (h : lintFile text ≠ []) : ∃ t, fixFile text = some t ∧ Repair text t ∧ Tidy t ∧ Ended t ∧
    ink t = ink text ∧ (∀ m ∈ lintFile t, m.1 = .nonASCII) ∧ (lintFile t = [] ↔ IsASCII t) ∧ fixFile t = some t := by
  have h0 : lines (universal text) ≠ [] := fun e => h (by rw [lintFile, e]; rfl)
  have : ∃ t, fixFile text = some t := by
    unfold fixFile
    split
    · next e => exact absurd e h0
    · exact ⟨_, rfl⟩
  obtain ⟨t, e⟩ := this
  obtain ⟨bs, rfl, hb, hbs⟩ := fixFile_eq e
  have hl : lintFile (join bs) = _ := lint_join (fun b h => (hb b h).noEnd) (join_noReturn hb)
  obtain ⟨h1, -, h3⟩ := lint_neat hb 0
  refine ⟨_, e, repair_fix e, tidy_join hb, ended_join bs, ink_fix e, hl ▸ h1, ⟨fun h => foreign_zero.1 (h3 (hl ▸ h)), fun h => ?_⟩, fix_again hb ?_⟩
  · have := (lint_neat hb 0).2.1
    rw [foreign_zero.2 h] at this
    rw [hl]
    exact List.eq_nil_of_length_eq_zero (Nat.le_zero.1 this)
  · rw [hbs]; exact fun e => h0 (List.map_eq_nil_iff.1 e)

/-- Non-vacuity: a file with all kinds of problems. -/
example : lintFile (chars! "a\tb \r\n  \r\né\t\n  c") ≠ [] ∧
    fixFile (chars! "a\tb \r\n  \r\né\t\n  c") = some (chars! "a    b\n\né\n  c\n") := by decide +kernel

/-- **C90**, for texts without carriage returns and with a line end at the end of the last line: the script has no objection exactly if the text is
tidy and all its characters are ASCII. -/
theorem C90_accepts_partial {text : List Char} (hr : '\r' ∉ text) (he : Ended text) :
    lintFile text = [] ↔ Tidy text ∧ IsASCII text := by
  obtain ⟨bs, rfl, hb⟩ := of_ended he
  rw [lint_join hb hr, lintLines_nil]
  constructor
  · intro h
    have h' : ∀ b ∈ bs, _ := fun b hb => lintLine_nil.1 (h (b ++ ['\n']) (List.mem_map.2 ⟨b, hb, rfl⟩))
    refine ⟨⟨fun ht => ?_, hr, (noSpace_join hb).2 fun b hm => ?_⟩, fun c hc => ?_⟩
    · obtain ⟨b, hm, ht⟩ := List.mem_flatMap.1 ht
      exact (h' b hm).2.2.1 ht
    · have := (h' b hm).2.1
      rwa [List.dropLast_concat] at this
    · obtain ⟨b, hm, hc⟩ := List.mem_flatMap.1 hc
      exact (h' b hm).1 c hc
  · rintro ⟨⟨h1, h2, h3⟩, h4⟩ l hl
    obtain ⟨b, hm, rfl⟩ := List.mem_map.1 hl
    have sub : ∀ c ∈ b ++ ['\n'], c ∈ join bs := fun c hc => List.mem_flatMap.2 ⟨b, hm, hc⟩
    refine lintLine_nil.2 ⟨fun c hc => h4 c (sub c hc), ?_, fun h => h1 (sub _ h), fun h => h2 (sub _ h)⟩
    rw [List.dropLast_concat]
    exact (noSpace_join hb).1 h3 b hm

/-- Non-vacuity: a text with two lines. -/
example : '\r' ∉ chars! "int i;\n  // x\n" ∧ Ended (chars! "int i;\n  // x\n") ∧ lintFile (chars! "int i;\n  // x\n") = [] := by
  refine ⟨by decide, .inr (by decide), by decide +kernel⟩

theorem hasExtension_iff {name ext : List Char} : ext.isSuffixOf (name.map Char.toLower) = true ↔ HasExtension name ext := by
  rw [List.isSuffixOf_iff_suffix]
  exact ⟨fun ⟨s, h⟩ => ⟨s, h.symm⟩, fun ⟨s, h⟩ => ⟨s, h.symm⟩⟩

/-- **C90**: which files are checked. -/
theorem C90_selected (f : File) : selected f = true ↔ Checked f := by
  unfold selected
  simp only [Bool.and_eq_true, List.all_eq_true, List.any_eq_true, hasExtension_iff, Bool.not_eq_true', List.any_eq_false]
  constructor
  · rintro ⟨⟨h1, h2⟩, h3⟩
    refine ⟨fun d hd => ?_, h2, fun h => h3 _ (by simp) h, fun h => h3 _ (by simp) h⟩
    have := h1 d hd
    simp only [visited, Bool.and_eq_true, Bool.not_eq_true', decide_eq_false_iff_not] at this
    refine ⟨fun h => ?_, ?_⟩
    · have h' := this.1.1
      rw [List.contains_iff_mem.2 h] at h'
      cases h'
    · rintro c rest rfl
      exact ⟨fun e => this.1.2 (by simp [e]), fun e => this.2 (by simp [e])⟩
  · rintro ⟨h1, h2, h3, h4⟩
    refine ⟨⟨fun d hd => ?_, h2⟩, fun e he => ?_⟩
    · obtain ⟨g1, g2⟩ := h1 d hd
      simp only [visited, Bool.and_eq_true, Bool.not_eq_true', decide_eq_false_iff_not]
      refine ⟨⟨Bool.eq_false_iff.2 fun h => g1 (List.contains_iff_mem.1 h), fun e => ?_⟩, fun e => ?_⟩
      · cases d with
        | nil => cases e
        | cons c r => exact (g2 c r rfl).1 (by simpa using e)
      · cases d with
        | nil => cases e
        | cons c r => exact (g2 c r rfl).2 (by simpa using e)
    · simp only [List.mem_cons, List.not_mem_nil, or_false] at he
      rcases he with rfl | rfl
      · exact h3
      · exact h4

theorem lintOne_result (f : File) : ∃ ms f', lintOne f = some (ms, f') ∧ Result f f' ms.length := by
  unfold lintOne
  cases hs : selected f with
  | false => exact ⟨[], f, rfl, rfl, rfl, rfl, .inl rfl, fun _ => ⟨rfl, rfl⟩, fun _ => rfl, fun h => by simp [hs] at h, fun h => by simp [hs] at h, Nat.zero_le _⟩
  | true =>
    rw [if_pos rfl]
    cases hl : lintFile f.text with
    | nil =>
      refine ⟨[], f, rfl, rfl, rfl, rfl, .inl rfl, fun _ => ⟨rfl, rfl⟩, fun _ => rfl, fun _ h => ?_, fun _ => ⟨fun _ => isASCII_of_lint hl, fun _ => rfl⟩,
        Nat.zero_le _⟩
      rcases h with h | h
      · exact absurd hl h
      · exact ((C90_accepts_partial h.1 h.2).1 hl).1
    | cons m ms =>
      have hne : lintFile f.text ≠ [] := by rw [hl]; simp
      obtain ⟨t, e, h6, h1, h2, h3, h4, h5, -⟩ := C90_repaired hne
      simp only [e]
      refine ⟨_, _, rfl, rfl, rfl, h3, .inr h6, fun h => by simp [hs] at h, fun h => absurd h hne, fun _ _ => h1,
        fun _ => ⟨fun h => h5.1 (List.eq_nil_of_length_eq_zero h), fun h => by rw [h5.2 h]; rfl⟩, ?_⟩
      obtain ⟨bs, rfl, hb, -⟩ := fixFile_eq e
      have hl : lintFile (join bs) = _ := lint_join (fun b h => (hb b h).noEnd) (join_noReturn hb)
      show (lintFile (join bs)).length ≤ _
      rw [hl]
      exact (lint_neat hb 0).2.1

theorem selected_eq {f f' : File} (h1 : f'.dirs = f.dirs) (h2 : f'.name = f.name) : selected f' = selected f := by
  unfold selected; rw [h1, h2]

theorem lintAll_result : ∀ files : List File, ∃ n files', lintAll files = some (n, files') ∧ files'.length = files.length ∧
    (∀ p ∈ files.zip files', ∃ k, Result p.1 p.2 k) ∧
    (n = 0 ↔ ∀ f ∈ files', selected f = true → IsASCII f.text) ∧ n ≤ foreignAll files' := by
  intro files
  induction files with
  | nil => exact ⟨0, [], rfl, rfl, by simp, by simp, Nat.zero_le _⟩
  | cons f files ih =>
    obtain ⟨n, files', e, h1, h2, h3, h4⟩ := ih
    obtain ⟨ms, f', e', hr⟩ := lintOne_result f
    have hsel := selected_eq hr.dirs hr.name
    refine ⟨ms.length + n, f' :: files', by rw [lintAll, e', e], by simp [h1], ?_, ?_, ?_⟩
    · simp only [List.zip_cons_cons, List.forall_mem_cons]
      exact ⟨⟨_, hr⟩, h2⟩
    · rw [Nat.add_eq_zero_iff, h3, List.forall_mem_cons]
      refine and_congr ?_ Iff.rfl
      cases hs : selected f with
      | false => rw [hsel, hs]; simp [(hr.other hs).2]
      | true => rw [hsel, hs]; simpa using hr.none hs
    · unfold foreignAll
      cases hs : selected f with
      | false =>
        have : selected f' = false := by rw [hsel, hs]
        rw [List.filter_cons_of_neg (by simp [this]), (hr.other hs).2, Nat.zero_add]
        exact h4
      | true =>
        have : selected f' = true := by rw [hsel, hs]
        rw [List.filter_cons_of_pos this]
        simp only [List.map_cons, List.sum_cons]
        exact Nat.add_le_add hr.few h4

/-- **C90**: the script always comes to its end. Every file stays in its place, with the same characters apart from white space (see `Result`). If less than 256
characters in the checked files are not ASCII, then the exit status is 0 exactly if there are none. -/
theorem C90_script_partial (files : List File) : ∃ status files', main files = some (status, files') ∧ files'.length = files.length ∧
    (∀ p ∈ files.zip files', ∃ k, Result p.1 p.2 k) ∧
    (foreignAll files' < 256 → (status = 0 ↔ ∀ f ∈ files', selected f = true → IsASCII f.text)) := by
  obtain ⟨n, files', e, h1, h2, h3, h4⟩ := lintAll_result files
  refine ⟨n % 256, files', by rw [main, e]; rfl, h1, h2, fun h => ?_⟩
  rw [Nat.mod_eq_of_lt (Nat.lt_of_le_of_lt h4 h)]
  exact h3

/-- Non-vacuity: a source file that is repaired, one with a problem that remains, a file that is not checked, and one in a directory that is not
visited. -/
example : main [⟨[chars! "src"], chars! "a.C", chars! "x \n"⟩, ⟨[], chars! "README.md", chars! "ü\n"⟩, ⟨[], chars! "b.py", chars! "\t\n"⟩,
      ⟨[chars! "build"], chars! "c.h", chars! "\t\n"⟩] =
    some (1, [⟨[chars! "src"], chars! "a.C", chars! "x\n"⟩, ⟨[], chars! "README.md", chars! "ü\n"⟩, ⟨[], chars! "b.py", chars! "\t\n"⟩,
      ⟨[chars! "build"], chars! "c.h", chars! "\t\n"⟩]) := by
  decide +kernel

/-- The check for carriage returns never finds one, because they are translated when the file is read. -/
theorem C90_violated_return (text : List Char) : (∀ i, (Kind.carriageReturn, i) ∉ lintFile text) ∧
    main [⟨[], chars! "a.c", chars! "x;\r\n"⟩] = some (0, [⟨[], chars! "a.c", chars! "x;\r\n"⟩]) := by
  refine ⟨?_, by decide +kernel⟩
  have key : ∀ (ls : List (List Char)) (k : Nat), (∀ l ∈ ls, '\r' ∉ l) → ∀ i, (Kind.carriageReturn, i) ∉ lintLines k ls := by
    intro ls
    induction ls with
    | nil => intro k _ i h; cases h
    | cons l ls ih =>
      intro k hl i h
      rcases List.mem_append.1 h with h | h
      · obtain ⟨x, hx, e⟩ := List.mem_map.1 h
        cases e
        have : '\r' ∉ l := hl l (by simp)
        simp only [lintLine, if_neg this, List.append_nil, List.mem_append] at hx
        rcases hx with (hx | hx) | hx <;> split at hx <;> simp at hx
      · exact ih (k + 1) (fun l h => hl l (by simp [h])) i h
  refine fun i => key _ 0 (fun l hl h => ?_) i
  refine universal_noReturn text ?_
  rw [← lines_flatten (universal text)]
  exact List.mem_flatten.2 ⟨l, hl, h⟩

/-- A space at the end of the last line is not found if the line has no line end. -/
theorem C90_violated_last : main [⟨[], chars! "a.c", chars! "x; "⟩] = some (0, [⟨[], chars! "a.c", chars! "x; "⟩]) := by decide +kernel

/-- A space before the last character of a last line without line end is taken for white space at the end. -/
theorem C90_violated_alarm : lintFile (chars! "a b") = [(.whitespace, 0)] := by decide +kernel

/-- With 256 problems the exit status says that there is none. -/
theorem C90_violated_status : main [⟨[], chars! "a.c", (List.replicate 256 (chars! "ü\n")).flatten⟩] =
    some (0, [⟨[], chars! "a.c", (List.replicate 256 (chars! "ü\n")).flatten⟩]) := by
  decide +kernel

end Verif.Lint
