import Verif.Importer.Uri
import Verif.Spec.Uri
import Verif.Lemmas.Ode

/-! # Lemmas: percent-encoding -/

namespace Verif.Importer
open Verif

/-- The encoding of one byte. -/
def encByte (s : Bool) (c : UInt8) : List UInt8 := if c ∈ legal then [c] else sprintfHex s c

/-- Bytes that are encoded correctly. -/
def Good (s : Bool) (c : UInt8) : Prop := 16 ≤ c.toNat ∧ (s = true → c.toNat < 128)

theorem sprintfHex_length {s c} (h : Good s c) : (sprintfHex s c).length = 3 := by
  unfold sprintfHex
  have := h.1
  have h2 := h.2
  simp only [if_neg (by omega : ¬ c.toNat < 16)]
  split
  · rename_i hc
    simp only [Bool.and_eq_true, decide_eq_true_eq] at hc
    have := h2 hc.1; omega
  · rfl

theorem encByte_length_le {s c} (h : Good s c) : (encByte s c).length ≤ 3 := by
  unfold encByte; split
  · simp
  · rw [sprintfHex_length h]; omega

theorem encode_loop (s : Bool) (n : Nat) : ∀ (path : List UInt8) (p : Nat) (l : List UInt8),
    (∀ c ∈ path, Good s c) → p < n → n ≤ l.length →
    (∃ l', encodeLoop s n path p (some l) = .ret (.Error, some l') ∧ l'.length = l.length ∧
        l'.drop n = l.drop n ∧ n < p + 3 * path.length + 1) ∨
    (∃ rest, encodeLoop s n path p (some l) =
          .ret (.OK, some (l.take p ++ path.flatMap (encByte s) ++ 0 :: rest)) ∧
        (l.take p ++ path.flatMap (encByte s) ++ 0 :: rest).length = l.length ∧
        (l.take p ++ path.flatMap (encByte s) ++ 0 :: rest).drop n = l.drop n ∧
        p + (path.flatMap (encByte s)).length < n) := by
  intro path
  induction path with
  | nil =>
    intro p l _ hp hn
    have hpl : p < l.length := by omega
    refine Or.inr ⟨l.drop (p + 1), ?_, ?_, ?_, by simpa using hp⟩
    · simp only [encodeLoop, Ptr.write, if_pos hpl, Outcome.ret_bind]
      rw [List.set_eq_take_append_cons_drop, if_pos hpl]; simp
    · simp; omega
    · simp only [List.flatMap_nil, List.append_nil]
      rw [List.drop_append, List.drop_of_length_le (by simp; omega)]
      simp only [List.length_take, Nat.min_eq_left (by omega : p ≤ l.length), List.nil_append]
      obtain ⟨k, rfl⟩ : ∃ k, n = p + 1 + k := ⟨n - p - 1, by omega⟩
      rw [show p + 1 + k - p = k + 1 by omega, List.drop_succ_cons, List.drop_drop]
  | cons c path ih =>
    intro p l hg hp hn
    have hgc := hg c (List.mem_cons_self ..)
    have hgp : ∀ c ∈ path, Good s c := fun c hc => hg c (List.mem_cons_of_mem _ hc)
    by_cases h4 : n < p + 4
    · refine Or.inl ⟨l, ?_, rfl, rfl, ?_⟩
      · simp only [encodeLoop, if_pos h4]
      · simp; omega
    · -- both branches write some bytes at `p` and go on behind the encoding of `c`
      have key : ∃ l₁, encodeLoop s n (c :: path) p (some l) =
          encodeLoop s n path (p + (encByte s c).length) (some l₁) ∧ l₁.length = l.length ∧
          l₁.drop n = l.drop n ∧ l₁.take (p + (encByte s c).length) = l.take p ++ encByte s c := by
        by_cases hl : c ∈ legal
        · refine ⟨l.set p c, ?_, by simp, ?_, ?_⟩
          · simp only [encodeLoop, if_neg h4, if_pos hl, Ptr.write,
              if_pos (by omega : p < l.length), Outcome.ret_bind, encByte, List.length_singleton]
          · rw [List.drop_set, if_pos (by omega)]
          · simp only [encByte, if_pos hl, List.length_singleton]
            rw [List.take_add_one]
            simp [List.take_set_of_le, (by omega : p < l.length)]
        · have hlen := sprintfHex_length hgc
          refine ⟨l.take p ++ (sprintfHex s c ++ [0]) ++ l.drop (p + 4), ?_, ?_, ?_, ?_⟩
          · simp only [encodeLoop, if_neg h4, if_neg hl]
            rw [writeN_eq _ _ _ (by simp [hlen]; omega)]
            simp only [Outcome.ret_bind, encByte, if_neg hl, hlen, List.length_append,
              List.length_singleton]
          · simp [hlen]; omega
          · rw [List.drop_append, List.drop_of_length_le (by simp [hlen]; omega)]
            simp only [List.nil_append, List.drop_drop, List.length_append, hlen,
              List.length_take, List.length_singleton]
            congr 1; omega
          · simp only [encByte, if_neg hl, hlen]
            rw [← List.append_assoc, List.append_assoc, List.append_assoc, ← List.append_assoc]
            rw [List.take_append_of_le_length (by simp [hlen]; omega)]
            rw [List.take_of_length_le (by simp [hlen]; omega)]
      obtain ⟨l₁, he, hlen, hdrop, htake⟩ := key
      have hle := encByte_length_le hgc
      rcases ih (p + (encByte s c).length) l₁ hgp (by omega) (by omega) with
        ⟨l', h1, h2, h3, h5⟩ | ⟨rest, h1, h2, h3, h6⟩
      · refine Or.inl ⟨l', by rw [he, h1], by omega, by rw [h3, hdrop], ?_⟩
        simp; omega
      · refine Or.inr ⟨rest, ?_⟩
        rw [htake] at h1 h2 h3
        simp only [List.flatMap_cons, ← List.append_assoc]
        exact ⟨by rw [he, h1], by omega, by rw [h3, hdrop], by simp only [List.length_append] at *; omega⟩

theorem cstring_unique : ∀ {a b ra rb : List UInt8}, 0 ∉ a → 0 ∉ b →
    b ++ 0 :: rb = a ++ 0 :: ra → b = a := by
  intro a
  induction a with
  | nil =>
    intro b ra rb _ hb h
    cases b with
    | nil => rfl
    | cons x b => simp only [List.cons_append, List.nil_append, List.cons.injEq] at h
                  exact absurd (h.1 ▸ List.mem_cons_self ..) hb
  | cons y a ih =>
    intro b ra rb ha hb h
    cases b with
    | nil => simp only [List.cons_append, List.nil_append, List.cons.injEq] at h
             exact absurd (h.1 ▸ List.mem_cons_self ..) ha
    | cons x b =>
      simp only [List.cons_append, List.cons.injEq] at h
      rw [h.1, ih (fun h => ha (List.mem_cons_of_mem _ h)) (fun h => hb (List.mem_cons_of_mem _ h)) h.2]

theorem hexValue_hexUpper : ∀ n : Fin 16, Spec.hexValue (hexUpper n) = some n.val := by
  decide +kernel

theorem hexUpper_ne_zero : ∀ n : Fin 16, hexUpper n ≠ 0 := by decide +kernel

theorem legal_ne : ∀ c ∈ legal, c ≠ 37 ∧ c ≠ 0 := by decide +kernel

theorem sprintfHex_good {s c} (h : Good s c) :
    sprintfHex s c = [37, hexUpper (c.toNat / 16), hexUpper (c.toNat % 16)] := by
  have h1 := h.1
  have h2 := h.2
  unfold sprintfHex
  simp only [if_neg (by omega : ¬ c.toNat < 16)]
  rw [if_neg]
  simp only [Bool.and_eq_true, decide_eq_true_eq]
  intro hc; have := h2 hc.1; omega

theorem decodes_encode {s : Bool} : ∀ path : List UInt8, (∀ c ∈ path, Good s c) →
    Spec.PercentDecodes (path.flatMap (encByte s)) path := by
  intro path
  induction path with
  | nil => intro _; exact .nil
  | cons c path ih =>
    intro h
    have hc := h c (List.mem_cons_self ..)
    have ih := ih fun c hc => h c (List.mem_cons_of_mem _ hc)
    simp only [List.flatMap_cons, encByte]
    split
    · rename_i hl
      exact .plain (legal_ne c hl).1 ih
    · rw [sprintfHex_good hc]
      have hlt : c.toNat < 256 := c.toNat_lt
      have h1 := hexValue_hexUpper ⟨c.toNat / 16, by omega⟩
      have h2 := hexValue_hexUpper ⟨c.toNat % 16, by omega⟩
      have := Spec.PercentDecodes.coded h1 h2 ih
      simp only [show 16 * (c.toNat / 16) + c.toNat % 16 = c.toNat by omega] at this
      simpa using this

theorem zero_notMem_encode {s : Bool} : ∀ path : List UInt8, (∀ c ∈ path, Good s c) →
    0 ∉ path.flatMap (encByte s) := by
  intro path h
  simp only [List.mem_flatMap, not_exists, not_and]
  intro c hc
  unfold encByte
  split
  · rename_i hl
    have := (legal_ne c hl).2
    simp; exact fun e => this e.symm
  · rw [sprintfHex_good (h c hc)]
    have hlt : c.toNat < 256 := c.toNat_lt
    have h1 := hexUpper_ne_zero ⟨c.toNat / 16, by omega⟩
    have h2 := hexUpper_ne_zero ⟨c.toNat % 16, by omega⟩
    simp only [List.mem_cons, List.not_mem_nil, or_false, not_or]
    exact ⟨by decide, fun e => h1 e.symm, fun e => h2 e.symm⟩

end Verif.Importer
