import Verif.Lemmas.Uri

/-!
# C41: `FMIPathToURI` percent-encodes paths

The full statement is false for two kinds of bytes (`C41_violated_low`, `C41_violated_high`); it
is proved for all paths without them.
-/

namespace Verif.Importer
open Verif Spec

/-- **C41, partial.** For every path whose bytes are at least 16 (no control characters) and, if
plain `char` is signed, below 128, every buffer and every announced length that does not exceed
the buffer: `FMIPathToURI` returns without leaving the announced part of the buffer; it reports
OK or an error; if OK, the buffer holds a C string `file://` followed by an encoding that
percent-decodes to the path and starts with `/` if the path does; and three bytes per byte of the path plus eight always suffice.
Missing: paths with other bytes, for which the statement is false. -/
theorem C41_partial (signedChar : Bool) (path buf : List UInt8) (uriLength : Nat)
    (hpath : ∀ c ∈ path, 16 ≤ c.toNat ∧ (signedChar = true → c.toNat < 128))
    (hbuf : uriLength ≤ buf.length) :
    ∃ s buf', pathToURI signedChar path (some buf) uriLength = .ret (s, some buf') ∧
      buf'.length = buf.length ∧ buf'.drop uriLength = buf.drop uriLength ∧
      (s = .OK ∨ s = .Error) ∧
      (s = .OK → ∃ e, HoldsString buf' (ascii "file://" ++ e) ∧ PercentDecodes e path ∧
        (path.head? = some 47 → e.head? = some 47) ∧ (ascii "file://" ++ e).length < uriLength) ∧
      (3 * path.length + 8 ≤ uriLength → s = .OK) := by
  unfold pathToURI
  by_cases h : uriLength < path.length + 8
  · rw [if_pos h]
    refine ⟨.Error, buf, rfl, rfl, rfl, Or.inr rfl, by simp, ?_⟩
    intro h'; omega
  · rw [if_neg h, writeN_eq _ _ _ (by simp [ascii]; omega)]
    simp only [Outcome.ret_bind]
    generalize hl : (buf.take 0 ++ (ascii "file://" ++ [0]) ++
      buf.drop (0 + (ascii "file://" ++ [0]).length)) = l
    have hlen8 : (ascii "file://" ++ [(0 : UInt8)]).length = 8 := by decide +kernel
    have hlen : l.length = buf.length := by
      rw [← hl]; simp only [List.length_append] at *; simp only [List.length_take,
        List.length_drop] ; simp only [ascii] at *; simp at *; omega
    have hdrop : l.drop uriLength = buf.drop uriLength := by
      rw [← hl, hlen8, List.drop_append, List.drop_of_length_le (by simp [hlen8] at *; omega)]
      simp only [List.take_zero, List.nil_append, hlen8, List.drop_drop]
      congr 1; omega
    have htake : l.take 7 = ascii "file://" := by
      rw [← hl, List.take_zero, List.nil_append, List.append_assoc]
      rw [List.take_append_of_le_length (by decide +kernel)]
      decide +kernel
    rcases encode_loop signedChar uriLength path 7 l hpath (by omega) (by omega) with
      ⟨l', h1, h2, h3, h4⟩ | ⟨rest, h1, h2, h3, h5⟩
    · refine ⟨.Error, l', h1, by omega, by rw [h3, hdrop], Or.inr rfl, by simp, ?_⟩
      intro h'; omega
    · rw [htake] at h1 h2 h3
      refine ⟨.OK, _, h1, by omega, by rw [h3, hdrop], Or.inl rfl, fun _ => ?_, fun _ => rfl⟩
      refine ⟨path.flatMap (encByte signedChar), ⟨?_, rest, rfl⟩, decodes_encode path hpath, ?_, ?_⟩
      · rw [List.mem_append, not_or]
        exact ⟨by decide +kernel, zero_notMem_encode path hpath⟩
      · intro hp
        cases path with
        | nil => cases hp
        | cons c path =>
          simp only [List.head?_cons, Option.some.injEq] at hp
          subst hp
          rw [List.flatMap_cons, encByte, if_pos (by decide)]
          rfl
      · rw [List.length_append, show (ascii "file://").length = 7 by decide +kernel]
        exact h5

/-- A path with a space and a percent sign in a large enough buffer. -/
example : pathToURI true (ascii "/a b%") (some (List.replicate 24 7)) 23 =
    .ret (.OK, some (ascii "file:///a%20b%25" ++ 0 :: List.replicate 7 7)) := by decide +kernel

/-- The same path does not fit into 14 bytes. -/
example : pathToURI true (ascii "/a b%") (some (List.replicate 17 7)) 14 =
    .ret (.Error, some (ascii "file:///a%20" ++ 0 :: List.replicate 4 7)) := by decide +kernel

/-- **C41 is violated** for bytes below 16: the path `/` followed by a newline is reported as
encoded, but the result is not even well-formed (`%` is followed by a space). -/
theorem C41_violated_low : ∃ buf', pathToURI true [47, 10] (some (List.replicate 32 0)) 32 =
      .ret (.OK, some buf') ∧
    ∀ e, HoldsString buf' (ascii "file://" ++ e) → ¬ PercentDecodes e [47, 10] := by
  refine ⟨ascii "file:///% A" ++ List.replicate 21 0, by decide +kernel, ?_⟩
  rintro e ⟨h0, rest, hr⟩ hd
  have he : e = ascii "/% A" := by
    have h1 : ascii "/% A" ++ 0 :: List.replicate 20 0 = e ++ 0 :: rest := by
      have : ascii "file://" ++ (ascii "/% A" ++ 0 :: List.replicate 20 0) =
          ascii "file://" ++ (e ++ 0 :: rest) := by
        rw [← List.append_assoc _ e, ← hr]; decide +kernel
      exact List.append_cancel_left this
    exact cstring_unique (by decide +kernel) (fun h => h0 (by simp [h])) h1.symm
  subst he
  have : ∀ r, ¬ PercentDecodes [47, 37, 32, 65] r := by
    intro r hd
    cases hd with
    | plain _ hd =>
      cases hd with
      | plain h => exact h rfl
      | coded ha => exact absurd ha (by simp [hexValue])
  exact this _ hd

/-- **C41 is violated** for bytes from 128 on if `char` is signed: with a path of a single byte
and a buffer of the announced size, the function writes beyond the end of the buffer. -/
theorem C41_violated_high : pathToURI true [195] (some (List.replicate 11 0)) 11 = .ub := by
  decide +kernel

/-- Even in a large buffer the encoding of such a byte is not its percent-encoding. -/
theorem C41_violated_high_decoding :
    pathToURI true [195] (some (List.replicate 32 0)) 32 =
      .ret (.OK, some (ascii "file://%FF" ++ 0 :: (ascii "FFFC3" ++ List.replicate 16 0))) := by
  decide +kernel

end Verif.Importer
