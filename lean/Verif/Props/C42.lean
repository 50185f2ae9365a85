import Verif.Lemmas.LogBuffer

/-!
# C42: the importer's log message buffer

The full statement is false: a text that fills the buffer exactly is truncated
(`C42_violated_truncated`), an array element that fills it exactly makes the importer loop for ever
(`C42_violated_endless`), and after a failed reallocation the code writes outside the buffer
(`C42_violated_outside`). It is proved for all sequences that do not hit a boundary exactly.
-/

namespace Verif.Importer
open Verif Spec

theorem create_buffer : LogBuffer.create.buffer = some ([] ++ 0 :: List.replicate 1023 0) := by
  show some (List.replicate (1023 + 1) 0) = _
  rw [List.replicate_succ, List.nil_append]

/-- **C42, partial.** Start from a new importer instance; let no reallocation fail. For every
sequence of clears, texts and value arrays that never fills a buffer of size `1024 * 2^k` exactly
(`Misses`), the operations return (given enough iterations), never write outside the buffer, and
the buffer then holds exactly the concatenation of everything appended since the last clear.
Missing: sequences that hit a boundary exactly, and exhausted memory, for which it is false. -/
theorem C42_partial (al : Allocator) (hal : ∀ k, al k ≠ none) (ops : List LogOp)
    (hp : ∀ op ∈ ops, LogOp.Proper op) (hm : Misses [] ops) :
    ∃ fuel₀, ∀ fuel, fuel₀ ≤ fuel →
      ∃ b l, LogBuffer.run al fuel LogBuffer.create ops = .ret b ∧ b.buffer = some l ∧
        HoldsString l (logText [] ops) := by
  obtain ⟨f, hf⟩ := run_holds hal ops [] hp hm
  refine ⟨f, fun fuel hle => ?_⟩
  obtain ⟨b, e, h⟩ := hf fuel hle LogBuffer.create
    ⟨rfl, ⟨0, by rfl⟩, by decide, ⟨List.replicate 1023 0, create_buffer, by
      simp only [List.nil_append, List.length_cons, List.length_replicate, LogBuffer.create]⟩⟩
  obtain ⟨r, h1, h2⟩ := h.buf
  exact ⟨b, _, e, h1, zero_notMem_logText ops [] (by simp) hp, r, rfl⟩

theorem writeN_ub {α : Type} : ∀ (vs l : List α) (i : Nat), l.length < i + vs.length →
    i ≤ l.length → writeN (some l) i vs = .ub := by
  intro vs
  induction vs with
  | nil => intro l i h h'; simp at h; omega
  | cons v vs ih =>
    intro l i h h'
    simp only [List.length_cons] at h
    simp only [writeN, Ptr.write]
    split
    · simp only [Outcome.ret_bind]
      exact ih _ _ (by simp; omega) (by simp; omega)
    · rfl

theorem not_bufferSize_of_lt {n : Nat} (h : n < 1024) : ¬ BufferSize n := by
  rintro ⟨k, rfl⟩
  have : 0 < 2 ^ k := Nat.pow_pos (by omega)
  omega

theorem not_bufferSize_of_between {n : Nat} (h : 1024 < n) (h' : n < 2048) : ¬ BufferSize n := by
  rintro ⟨k, rfl⟩
  have h0 : 1 < 2 ^ k := by omega
  have h1 : 2 ^ k < 2 := by omega
  omega

/-- A text of 1100 characters (so the buffer grows), a string array and a binary array. -/
example : let ops := [.text (List.replicate 1100 97), .array [.text (ascii "1"), .binary [171, 0]]]
    (∀ op ∈ ops, LogOp.Proper op) ∧ Misses [] ops ∧
    logText [] ops = List.replicate 1100 97 ++ ascii "1, 0xab00" := by
  have e1 : (elemText (.text (ascii "1"))).length = 1 := by decide +kernel
  have e2 : (elemText (.binary [171, 0])).length = 6 := by decide +kernel
  refine ⟨?_, ?_, by decide +kernel⟩
  · intro op h
    simp only [List.mem_cons, List.not_mem_nil, or_false] at h
    rcases h with rfl | rfl
    · simp only [LogOp.Proper, List.mem_replicate]; decide
    · intro e he
      simp only [List.mem_cons, List.not_mem_nil, or_false] at he
      rcases he with rfl | rfl
      · exact ⟨by simp, by decide +kernel⟩
      · exact ⟨by simp, by decide +kernel⟩
  · refine ⟨?_, ⟨?_, ?_, trivial⟩, trivial⟩
    all_goals refine not_bufferSize_of_between ?_ ?_
    all_goals simp only [e1, e2, List.nil_append, List.length_append, List.length_replicate, List.length_nil]
    all_goals omega

/-- An allocator that never fails and returns zeroed memory. -/
def zeroes : Allocator := fun _ => some fun _ => 0

theorem snprintf_behind (a : List UInt8) (x y v : UInt8) (r : List UInt8) (n : Nat) (hn : 1 < n) :
    snprintf (some (a ++ x :: y :: r)) a.length n [v] = .ret (some (a ++ v :: 0 :: r)) := by
  simp only [snprintf]
  rw [if_neg (by omega), List.take_of_length_le (by simp; omega),
    writeN_eq _ _ _ (by simp)]
  simp [List.drop_append]

theorem append_behind (a : List UInt8) (ha : a.length = 1024) :
    LogBuffer.append zeroes 10 ⟨some a, 1024, 1024, 1⟩ [98] =
      .ret ⟨some (a ++ [98, 0] ++ List.replicate 1022 0), 2048, 1025, 2⟩ := by
  have g2 : growTo 10 1024 (1024 + (0 + 1)) = .ret 2048 := by decide +kernel
  have h4 : reallocated a 2048 (fun _ => 0) = a ++ List.replicate 1024 0 := by
    unfold reallocated
    rw [List.take_of_length_le (by omega), ha]
    rw [List.map_const', List.length_range, show 2048 - 1024 = 1024 from rfl]
  have h5 : snprintf (some (a ++ List.replicate 1024 0)) 1024 1024 [98] =
      .ret (some (a ++ [98, 0] ++ List.replicate 1022 0)) := by
    have := snprintf_behind a 0 0 98 (List.replicate 1022 0) 1024 (by omega)
    rw [ha] at this
    rw [show List.replicate 1024 (0 : UInt8) = 0 :: 0 :: List.replicate 1022 0 by
      rw [← List.replicate_succ, ← List.replicate_succ], this]
    simp only [List.append_assoc, List.cons_append, List.nil_append]
  have h6 : snprintf (some a) 1024 0 [98] = .ret (some a) := rfl
  simp only [LogBuffer.append, Nat.sub_self, h6, Outcome.ret_bind, List.length_cons,
    List.length_nil, if_neg (by omega : ¬ 0 + 1 < 0), g2, LogBuffer.realloc, zeroes,
    Option.getD_some, h4]
  rw [show 2048 - 1024 = 1024 from rfl, h5]
  rfl

/-- **C42 is violated**: of every text of 1024 characters appended to a new buffer the last
character is lost, and what is appended next is invisible because it stands behind a terminator. -/
theorem C42_violated_truncated (t : List UInt8) (ht : t.length = 1024) (h0 : 0 ∉ t) :
    ∃ b l, LogBuffer.run zeroes 10 .create [.text t, .text [98]] = .ret b ∧
      b.buffer = some l ∧ HoldsString l (t.take 1023) := by
  have g1 : growTo 10 1024 (0 + 1024) = .ret 1024 := by decide +kernel
  have h1 : ∀ l : List UInt8, l.length = 1024 →
      snprintf (some l) 0 1024 t = .ret (some (t.take 1023 ++ [0])) := by
    intro l hl
    simp only [snprintf]
    rw [if_neg (by omega), writeN_eq _ _ _ (by simp; omega)]
    congr 2
    rw [List.drop_of_length_le (by simp; omega)]; simp
  have h2 : (t.take 1023 ++ [(0 : UInt8)]).length = 1024 := by simp; omega
  have h3 : reallocated (t.take 1023 ++ [0]) 1024 (fun _ => 0) = t.take 1023 ++ [0] := by
    unfold reallocated
    rw [List.take_of_length_le (by omega), h2]; simp
  have e1 : LogBuffer.append zeroes 10 .create t =
      .ret ⟨some (t.take 1023 ++ [0]), 1024, 1024, 1⟩ := by
    simp only [LogBuffer.append, LogBuffer.create, Nat.sub_zero]
    rw [h1 _ List.length_replicate]
    simp only [Outcome.ret_bind, ht, g1, LogBuffer.realloc, zeroes, Option.getD_some, h3,
      Nat.sub_zero, h1 _ h2]
    rw [if_neg (by omega)]
  have e2 := append_behind (t.take 1023 ++ [0]) h2
  refine ⟨⟨some (t.take 1023 ++ [0] ++ [98, 0] ++ List.replicate 1022 0), 2048, 1025, 2⟩, _, ?_, rfl,
    fun h => h0 (List.mem_of_mem_take h), 98 :: 0 :: List.replicate 1022 0, ?_⟩
  · simp only [LogBuffer.run, LogBuffer.step, e1, Outcome.ret_bind, e2]
  · simp only [List.append_assoc, List.cons_append, List.nil_append]

/-- **C42 is violated**: logging an array with one string value of 1019 characters (1021 with
quotes) in an empty buffer never returns, however many iterations it is given. -/
theorem C42_violated_endless (fuel : Nat) :
    LogBuffer.run zeroes fuel .create [.array [.text (List.replicate 1021 97)]] = .hang := by
  have key : ∀ (t : List UInt8), t.length = 1021 → ∀ (fuel : Nat) (l : List UInt8) (calls : Nat),
      l.length = 1024 →
      LogBuffer.appendArray zeroes fuel ⟨some l, 1024, 0, calls⟩ [.text t] = .hang := by
    intro t ht fuel
    induction fuel with
    | zero => intro l calls _; rfl
    | succ fuel ih =>
      intro l calls hl
      obtain ⟨r, h1, h2⟩ := printElem_any (e := .text t) (txt := [])
        (by simp) ⟨l, rfl⟩ hl (by simp)
      have h1' : printElem (some l) 0 (1024 - 0) (.text t) = some (.ret (some r, 1021)) := by
        simpa [elemText, ht] using h1
      simp only [LogBuffer.appendArray, h1', Outcome.ret_bind]
      rw [if_neg (by omega)]
      cases fuel with
      | zero => rfl
      | succ fuel =>
        simp only [growTo]
        rw [if_neg (by omega)]
        simp only [Outcome.ret_bind, LogBuffer.realloc, zeroes]
        refine ih _ _ ?_
        simp only [List.nil_append] at h2
        simp [reallocated, h2]
  simp only [LogBuffer.run, LogBuffer.step, LogBuffer.create]
  rw [key _ List.length_replicate fuel _ 0 List.length_replicate]
  rfl

/-- **C42 is violated** when memory is exhausted: after a failed reallocation the buffer is
believed to have its new size, and the next text is written outside. -/
theorem C42_violated_outside (t u : List UInt8) (ht : t.length = 1000) (hu : u.length = 100) :
    LogBuffer.run (fun _ => none) 10 .create [.text t, .text u, .text u] = .ub := by
  obtain ⟨rest, e, hl⟩ := snprintf_fits (l := List.replicate 1024 0) (txt := []) (t := t)
    (n := 1024) ⟨_, rfl⟩ List.length_replicate (by simp only [List.length_nil]; omega)
  simp only [List.nil_append, List.length_nil, Nat.sub_zero] at e hl
  have e1 : LogBuffer.append (fun _ => none) 10 .create t =
      .ret ⟨some (t ++ 0 :: rest), 1024, 1000, 0⟩ := by
    show LogBuffer.append _ 10 ⟨some (List.replicate 1024 0), 1024, 0, 0⟩ t = _
    simp only [LogBuffer.append, Nat.sub_zero, e, Outcome.ret_bind, Nat.zero_add]
    split
    · rw [ht]
    · omega
  obtain ⟨r, e', hl'⟩ := snprintf_any (l := t ++ 0 :: rest) (txt := t) (t := u) (n := 1024)
    ⟨_, rfl⟩ hl (by omega)
  rw [ht] at e'
  have e2 : LogBuffer.append (fun _ => none) 10 ⟨some (t ++ 0 :: rest), 1024, 1000, 0⟩ u =
      .ret ⟨some (t ++ r), 2048, 1000, 1⟩ := by
    simp only [LogBuffer.append, e', Outcome.ret_bind]
    rw [if_neg (by omega), hu]
    rw [show growTo 10 1024 (1000 + 100) = .ret 2048 by decide +kernel]
    rfl
  have e3 : LogBuffer.append (fun _ => none) 10 ⟨some (t ++ r), 2048, 1000, 1⟩ u = .ub := by
    simp only [LogBuffer.append, snprintf]
    rw [if_neg (by omega), List.take_of_length_le (by omega),
      writeN_ub _ _ _ (by simp only [List.length_append, hu, hl', List.length_singleton]; omega)
        (by omega)]
    rfl
  simp only [LogBuffer.run, LogBuffer.step, e1, Outcome.ret_bind, e2, e3, Outcome.ub_bind]

example : (List.replicate 1024 (97 : UInt8)).length = 1024 ∧ 0 ∉ List.replicate 1024 (97 : UInt8) :=
  ⟨List.length_replicate, by rw [List.mem_replicate]; decide⟩

end Verif.Importer
