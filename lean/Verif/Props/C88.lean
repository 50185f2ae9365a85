import Verif.Lemmas.Messages

/-!
# C88: a message of an FMU reaches the logger of the importing program as the FMU has written it

For FMI 3 this holds for every message (`C88_fmi3`). For FMI 2 it is false in general: the importer library uses the text as a format (`C88_violated_percent`, `C88_violated_changed`) and cuts it off
(`C88_violated_long`). `C88_fmi2` says exactly what the program gets.
-/

namespace Verif.Importer.Messages
open Verif Spec.Messages

variable {F : Type} {C : CLib F}

/-- **C88, FMI 3.** For every format and all arguments from which a text can be made: if the switch for the kind of message is on and the program has a logger, the logger gets exactly one message, with the status, the
category and the text; otherwise none. -/
theorem C88_fmi3 (program : Bool) (s : Switches) {format : List Char} {args : List (Val F)} {text : List Char} (h : sprintf C none format args = .ret text) (hl : text.length < 2 ^ 31) :
    logError C true (logger C program .fmi3) s format args = .ret (if s.errors ∧ program then [⟨.Error, chars! "logStatusError", text⟩] else []) ∧
    logEvent C true (logger C program .fmi3) s format args = .ret (if s.events ∧ program then [⟨.OK, chars! "logEvents", text⟩] else []) := by
  obtain ⟨ev, er⟩ := s
  refine ⟨?_, ?_⟩
  · cases er <;> cases program <;> first | rfl | exact logMessage_eq h hl
  · cases ev <;> cases program <;> first | rfl | exact logMessage_eq h hl

example : sprintf (⟨fun _ => chars! "0", fun _ => chars! "0"⟩ : CLib Nat) none (chars! "Get Float64 is not allowed for value reference %u.") [.uint 17] =
    .ret (chars! "Get Float64 is not allowed for value reference 17.") := by with_unfolding_all rfl

/-- **C88, FMI 2, exact.** For every format and all arguments: the program gets what a text becomes if it is used as a format without arguments, at most 4095 characters of it; if that is not defined, the call is not. -/
theorem C88_fmi2 (program : Bool) (s : Switches) {format : List Char} {args : List (Val F)} {text : List Char} (h : sprintf C none format args = .ret text) (hl : text.length < 2 ^ 31) :
    logError C true (logger C program .fmi2) s format args = (if s.errors then match unescape text with
      | some u => .ret (if program then [⟨.Error, chars! "logStatusError", u.take 4095⟩] else [])
      | none => .ub else .ret []) ∧
    logEvent C true (logger C program .fmi2) s format args = (if s.events then match unescape text with
      | some u => .ret (if program then [⟨.OK, chars! "logEvents", u.take 4095⟩] else [])
      | none => .ub else .ret []) := by
  obtain ⟨ev, er⟩ := s
  refine ⟨?_, ?_⟩
  · cases er with
    | false => rfl
    | true => exact (logMessage_eq h hl).trans (cb_logMessage2_eq _ _ _ _)
  · cases ev with
    | false => rfl
    | true => exact (logMessage_eq h hl).trans (cb_logMessage2_eq _ _ _ _)

/-- **C88, FMI 2, partial.** For every message of the Reference FMUs: if no string that goes into it contains a percent sign and the text is shorter than 4096 characters, the logger of the program gets exactly one
message, with the status, the category and the text, if the switch is on; otherwise none. Missing: strings with percent signs and long strings, see `C88_violated_percent`, `C88_violated_changed` and
`C88_violated_long`. That the C library prints numbers without percent signs is a hypothesis. -/
theorem C88_fmi2_partial (h1 : ∀ x, '%' ∉ C.g x) (h2 : ∀ x, '%' ∉ C.g16 x) (program : Bool) (s : Switches) {format : List Char} (hf : format ∈ formats) {args : List (Val F)}
    (ha : ∀ str, Val.string (some str) ∈ args → '%' ∉ str) {text : List Char} (h : sprintf C none format args = .ret text) (hl : text.length < 4096) :
    logError C true (logger C program .fmi2) s format args = .ret (if s.errors ∧ program then [⟨.Error, chars! "logStatusError", text⟩] else []) ∧
    logEvent C true (logger C program .fmi2) s format args = .ret (if s.events ∧ program then [⟨.OK, chars! "logEvents", text⟩] else []) := by
  have hc := sprintf_clean h1 h2 (formats_single _ hf) ha h
  have ht : text.take 4095 = text := List.take_of_length_le (by omega)
  obtain ⟨h3, h4⟩ := C88_fmi2 program s h (by omega)
  rw [h3, h4, unescape_plain hc]
  simp only [ht]
  obtain ⟨ev, er⟩ := s
  cases ev <;> cases er <;> cases program <;> exact ⟨rfl, rfl⟩

/-- The hypotheses can be met, also with a string. -/
example : let C : CLib Nat := ⟨fun _ => chars! "0", fun _ => chars! "0.5"⟩
    (∀ x, '%' ∉ C.g x) ∧ (∀ x, '%' ∉ C.g16 x) ∧ (chars! "Failed to open resource file %s.") ∈ formats ∧
    sprintf C none (chars! "Failed to open resource file %s.") [.string (some (chars! "/tmp/y.txt"))] = .ret (chars! "Failed to open resource file /tmp/y.txt.") := by
  refine ⟨fun _ => (by decide : '%' ∉ chars! "0"), fun _ => (by decide : '%' ∉ chars! "0.5"), by decide +kernel, by with_unfolding_all rfl⟩

theorem read_append {α : Type} {l r : List α} {a : α} : Ptr.read (some (l ++ a :: r)) l.length = .ret a := by
  simp [Ptr.read]

theorem unknown_text (i : Nat) (c : List Char) :
    sprintf C none (chars! "Log categories[%zu] must be one of \"logEvents\" or \"logStatusError\" but was \"%s\".") [.size i, .string (some c)] = .ret (unknownCategory i c) := by
  have h : OutputFile.decimal (i : Int) = (Nat.repr i).toList := by
    show Nat.toDigits 10 i = _
    simp [Nat.repr]
  simp [sprintf, prefixes, conversion, h, unknownCategory]

theorem loop_eq {calloc on : Bool} {lg : Option Logger} {c : List Char} (hc : ¬ Known c) {rest : List (Option (List Char))} :
    ∀ {before : List (List Char)}, (∀ b ∈ before, Known b) → ∀ {pre : List (Option (List Char))} {n : Nat}, before.length < n → ∀ (s : Switches), ∃ s' : Switches,
      s'.errors = errorsAfter on before s.errors ∧
      setDebugLoggingLoop C calloc lg on (some (pre ++ (before.map some ++ some c :: rest))) n pre.length s =
        logError C calloc lg s' (chars! "Log categories[%zu] must be one of \"logEvents\" or \"logStatusError\" but was \"%s\".") [.size (pre.length + before.length), .string (some c)] >>- fun ms =>
          .ret (s', .Error, ms)
  | [], _, pre, n, hn, s => by
    refine ⟨s, rfl, ?_⟩
    rw [Known, not_or] at hc
    cases n with
    | zero => exact absurd hn (Nat.not_lt_zero _)
    | succ n =>
      rw [setDebugLoggingLoop, List.map_nil, List.nil_append, read_append, Outcome.ret_bind]
      simp only [if_neg hc.1, if_neg hc.2]
      rfl
  | b :: before, hb, pre, n, hn, s => by
    cases n with
    | zero => exact absurd hn (Nat.not_lt_zero _)
    | succ n =>
      have e : pre ++ ((b :: before).map some ++ some c :: rest) = (pre ++ [some b]) ++ (before.map some ++ some c :: rest) := by simp
      have hl : (pre ++ [some b]).length = pre.length + 1 := by simp
      have hn' : before.length < n := Nat.lt_of_succ_lt_succ hn
      have hi : pre.length + (b :: before).length = (pre ++ [some b]).length + before.length := by simp; omega
      have ih := fun s => loop_eq (calloc := calloc) (on := on) (lg := lg) hc (rest := rest) (fun x hx => hb x (.tail _ hx)) (pre := pre ++ [some b]) hn' s
      rw [hl, ← e] at ih
      rw [hi, hl]
      rw [setDebugLoggingLoop, List.map_cons, List.cons_append, read_append, Outcome.ret_bind]
      rw [List.map_cons, List.cons_append] at ih
      rcases hb b (.head _) with rfl | rfl
      · obtain ⟨s', h1, h2⟩ := ih { s with events := on }
        refine ⟨s', ?_, ?_⟩
        · rw [h1]; simp [errorsAfter]
        · simp only [if_true]; exact h2
      · obtain ⟨s', h1, h2⟩ := ih { s with errors := on }
        refine ⟨s', ?_, ?_⟩
        · rw [h1]; simp [errorsAfter]
        · simp only [if_true, show ((chars! "logStatusError") = chars! "logEvents") = False from eq_false (by decide), if_false]; exact h2

/-- **C88, log categories, FMI 3.** If the array of categories begins with known names and then has a name that is not known, setting the log categories fails, and the logger of the program gets the message that
says which category is wrong, at which position, if errors are logged at that point; otherwise nothing. -/
theorem C88_category_fmi3 (program on : Bool) {before : List (List Char)} (hb : ∀ b ∈ before, Known b) {c : List Char} (hc : ¬ Known c) (rest : List (Option (List Char))) {n : Nat}
    (hn : before.length < n) (s : Switches) (hl : (unknownCategory before.length c).length < 2 ^ 31) :
    ∃ s', setDebugLogging C true (logger C program .fmi3) on n (some (before.map some ++ some c :: rest)) s =
      .ret (s', .Error, if errorsAfter on before s.errors ∧ program then [⟨.Error, chars! "logStatusError", unknownCategory before.length c⟩] else []) := by
  obtain ⟨s', h1, h2⟩ := loop_eq (C := C) (calloc := true) (on := on) (lg := logger C program .fmi3) hc (rest := rest) hb (pre := []) hn s
  refine ⟨s', ?_⟩
  rw [setDebugLogging, if_pos (by omega)]
  simp only [Option.isNone_some, Bool.false_eq_true, if_false]
  simp only [List.nil_append, List.length_nil, Nat.zero_add] at h2
  rw [h2, (C88_fmi3 program s' (unknown_text _ _) hl).1, h1]
  rfl

/-- **C88, log categories, FMI 2, partial.** The same for FMI 2, if the name contains no percent sign and the message is shorter than 4096 characters. Missing: other names, see `C88_violated_percent`,
`C88_violated_changed` and `C88_violated_long`. -/
theorem C88_category_fmi2_partial (program on : Bool) {before : List (List Char)} (hb : ∀ b ∈ before, Known b) {c : List Char} (hc : ¬ Known c) (rest : List (Option (List Char))) {n : Nat}
    (hn : before.length < n) (s : Switches) (hl : (unknownCategory before.length c).length < 4096) (hp : '%' ∉ c) :
    ∃ s', setDebugLogging C true (logger C program .fmi2) on n (some (before.map some ++ some c :: rest)) s =
      .ret (s', .Error, if errorsAfter on before s.errors ∧ program then [⟨.Error, chars! "logStatusError", unknownCategory before.length c⟩] else []) := by
  obtain ⟨s', h1, h2⟩ := loop_eq (C := C) (calloc := true) (on := on) (lg := logger C program .fmi2) hc (rest := rest) hb (pre := []) hn s
  refine ⟨s', ?_⟩
  rw [setDebugLogging, if_pos (by omega)]
  simp only [Option.isNone_some, Bool.false_eq_true, if_false]
  simp only [List.nil_append, List.length_nil, Nat.zero_add] at h2
  have hd : '%' ∉ unknownCategory before.length c := by
    have := decimal_percent (before.length : Int)
    have h : OutputFile.decimal (before.length : Int) = (Nat.repr before.length).toList := by
      show Nat.toDigits 10 _ = _
      simp [Nat.repr]
    rw [h] at this
    simp only [unknownCategory, List.mem_append, not_or]
    exact ⟨⟨⟨⟨by decide, this⟩, by decide⟩, hp⟩, by decide⟩
  have ht : (unknownCategory before.length c).take 4095 = unknownCategory before.length c := List.take_of_length_le (by omega)
  rw [h2, (C88_fmi2 program s' (unknown_text _ _) (by omega)).1, unescape_plain hd]
  simp only [ht, h1]
  cases errorsAfter on before s.errors <;> cases program <;> rfl

/-- The hypotheses can be met: the second of three categories is not known. -/
example : (∀ b ∈ [chars! "logEvents"], Known b) ∧ ¬ Known (chars! "logAll") ∧ '%' ∉ chars! "logAll" ∧
    unknownCategory 1 (chars! "logAll") = chars! "Log categories[1] must be one of \"logEvents\" or \"logStatusError\" but was \"logAll\"." := by
  refine ⟨?_, ?_, by decide, by with_unfolding_all rfl⟩
  · intro b hb; exact .inl (List.mem_singleton.1 hb)
  · rw [Known, not_or]; exact ⟨by decide, by decide⟩

/-- **C88, the example programs.** They print the status in brackets and the text in one line. -/
theorem C88_console (m : Message) : console m = ['['] ++ status m.status ++ [']', ' '] ++ m.text ++ ['\n'] := by
  cases m with
  | mk s c t => cases s <;> rfl

example : console ⟨.Error, chars! "logStatusError", chars! "Out of memory."⟩ = chars! "[Error] Out of memory.\n" := rfl

/-- **C88 is violated: a percent sign.** The importing program sets the log category `%s` of an FMI 2 FMU. The FMU logs its name in a message, and the importer library uses the message as a format: the behaviour is
undefined. With FMI 3 the program gets the message. -/
theorem C88_violated_percent : let category := chars! "%s"
    setDebugLogging C true (logger C true .fmi2) true 1 (some [some category]) ⟨true, true⟩ = .ub ∧
    setDebugLogging C true (logger C true .fmi3) true 1 (some [some category]) ⟨true, true⟩ =
      .ret (⟨true, true⟩, .Error, [⟨.Error, chars! "logStatusError", unknownCategory 0 category⟩]) := by
  refine ⟨?_, ?_⟩ <;> with_unfolding_all rfl

/-- **C88 is violated: two percent signs.** The message names another category than the one that was set. -/
theorem C88_violated_changed :
    setDebugLogging C true (logger C true .fmi2) true 1 (some [some (chars! "a%%b")]) ⟨true, true⟩ =
      .ret (⟨true, true⟩, .Error, [⟨.Error, chars! "logStatusError", unknownCategory 0 (chars! "a%b")⟩]) := by
  with_unfolding_all rfl

/-- **C88 is violated: a long name.** Whatever the name is, if the message has 4096 characters or more and no percent sign, the program gets its first 4095 characters. -/
theorem C88_violated_long {format : List Char} {args : List (Val F)} {text : List Char} (h : sprintf C none format args = .ret text) (hp : '%' ∉ text) (hl : 4096 ≤ text.length)
    (hl' : text.length < 2 ^ 31) : ∃ text', logError C true (logger C true .fmi2) ⟨true, true⟩ format args = .ret [⟨.Error, chars! "logStatusError", text'⟩] ∧ text'.length = 4095 ∧ text' ≠ text := by
  refine ⟨text.take 4095, ?_, by rw [List.length_take]; omega, fun e => ?_⟩
  · rw [(C88_fmi2 true ⟨true, true⟩ h hl').1, unescape_plain hp]; rfl
  · have := congrArg List.length e
    rw [List.length_take] at this
    omega

/-- There is such a message. -/
example : sprintf C none (chars! "%s") [.string (some (List.replicate 5000 'a'))] = .ret (List.replicate 5000 'a') ∧ '%' ∉ List.replicate 5000 'a' ∧ (List.replicate 5000 'a').length = 5000 := by
  refine ⟨?_, fun h => ?_, List.length_replicate⟩
  · generalize List.replicate 5000 'a' = l
    simp [sprintf, prefixes, conversion]
  · exact absurd (List.eq_of_mem_replicate h) (by decide)

/-- **C88 is violated: no memory.** If the text cannot be allocated, the FMU writes to a null pointer. -/
theorem C88_violated_memory (v : Version) {format : List Char} {args : List (Val F)} {text : List Char} (h : sprintf C none format args = .ret text) (hl : text.length < 2 ^ 31) :
    logError C false (logger C true v) ⟨true, true⟩ format args = .ub := by
  have h0 : ¬ ((text.length : Int) < 0) := by omega
  have hl' : text.length < 2147483648 := hl
  cases v <;> simp [logError, logMessage, logger, vsnprintf, h, hl', h0]

end Verif.Importer.Messages
