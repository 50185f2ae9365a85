import Verif.Lemmas.Reach3
import Verif.Lemmas.Modes2
import Verif.Models.Resource
import Verif.Spec.Uri
import Verif.Spec.Observe

/-!
# Paths of the Resource FMU
-/

set_option linter.unusedSectionVars false

namespace Verif.Resource
open Verif Spec

theorem hexDigit_ge {b : UInt8} {x : Nat} (h : hexDigit? b = some x) : 48 ≤ b.toNat := by
  unfold hexDigit? at h
  split at h
  · omega
  · split at h
    · omega
    · split at h
      · omega
      · cases h

theorem hexDigit_lt {b : UInt8} {x : Nat} (h : hexDigit? b = some x) : x < 16 := by
  unfold hexDigit? at h
  split at h
  · cases h; omega
  · split at h
    · cases h; omega
    · split at h
      · cases h; omega
      · cases h

theorem toByte_strtol {a b : UInt8} {x y : Nat} (ha : hexDigit? a = some x)
    (hb : hexDigit? b = some y) : toByte (strtol2 a b) = (16 * x + y).toUInt8 := by
  have h1 := hexDigit_ge ha
  have hs : isSpace a = false := by
    simp only [isSpace, Bool.or_eq_false_iff, decide_eq_false_iff_not, Bool.and_eq_false_iff]
    omega
  have hx := hexDigit_lt ha
  have hy := hexDigit_lt hb
  have e : strtol2 a b = 16 * x + y := by
    unfold strtol2
    simp only [hs, Bool.false_eq_true, if_false, ha, hb]
    rw [if_neg (by omega), if_neg (by omega)]
  rw [e]
  unfold toByte
  congr 1
  omega

theorem percentDecode_eq {p q : List UInt8} (h : PercentDecodes p q) : percentDecode p = q := by
  induction h with
  | nil => rfl
  | @plain c l r hc hd ih =>
    have hc' : ¬ c.toNat = 37 := fun e => hc (UInt8.toNat_inj.1 (by simpa using e))
    match l, hd with
    | [], .nil => rfl
    | [a], hd =>
      have : percentDecode [c, a] = [c, a] := rfl
      have h2 : percentDecode [a] = [a] := rfl
      rw [this, ← ih, h2]
    | a :: b :: rest, hd =>
      rw [percentDecode, if_neg hc', ih]
  | @coded a b x y l r ha hb hd ih =>
    rw [percentDecode, if_pos (by decide), ih, toByte_strtol ha hb]

theorem cstr_eq {q : List UInt8} (h : 0 ∉ q) : cstr q = q := by
  unfold cstr
  induction q with
  | nil => rfl
  | cons a q ih =>
    simp only [List.mem_cons, not_or] at h
    rw [List.takeWhile_cons, ih h.2]
    simp [Ne.symm h.1]

theorem resourcePath_of {loc p : List UInt8} (h : FileUri loc p) :
    resourcePath false (some loc) = .ret (.path
      (let q := cstr (percentDecode (p.take 4095)); q ++ (ascii "/y.txt").take (4095 - q.length))) := by
  have hb : Spec.ascii = ascii := rfl
  obtain ⟨hp, h⟩ := h
  rw [hb] at h
  cases p with
  | nil => cases hp
  | cons a p =>
    simp only [List.head?_cons, Option.some.injEq] at hp
    subst hp
    have e1 : ascii "file:///" = [102, 105, 108, 101, 58, 47, 47, 47] := by decide
    have e2 : ascii "file:/" = [102, 105, 108, 101, 58, 47] := by decide
    have e3 : ascii "file://" = [102, 105, 108, 101, 58, 47, 47] := by decide
    have e4 : ascii "file:" = [102, 105, 108, 101, 58] := by decide
    unfold resourcePath
    simp only [Bool.false_eq_true, if_false, e1, e2, maxPathLength]
    rcases h with rfl | ⟨rfl, h⟩
    · rw [e3, if_pos (by simp)]
      simp only [List.length_cons, List.length_nil, List.cons_append, List.nil_append,
        Nat.sub_right_comm 4096 _ 1]
      rfl
    · rw [e4, if_neg, if_pos (by simp)]
      · simp only [List.length_cons, List.length_nil, List.cons_append, List.nil_append,
          Nat.sub_right_comm 4096 _ 1]
        rfl
      · intro hc
        apply h
        simpa using hc

theorem resourcePath_three {dir : List UInt8} (h : dir.length ≤ 4090) :
    resourcePath true (some dir) = .ret (.path (dir ++ ascii "y.txt")) := by
  show (if dir.length ≥ maxPathLength then Outcome.ub else
    .ret (PathResult.path (dir ++ (ascii "y.txt").take (maxPathLength - dir.length - 1)))) = _
  have : (ascii "y.txt").length = 5 := by decide
  unfold maxPathLength
  rw [if_neg (by omega), List.take_of_length_le (by omega)]

theorem resourcePath_long {dir : List UInt8} (h : 4096 ≤ dir.length) :
    resourcePath true (some dir) = .ub := by
  show (if dir.length ≥ maxPathLength then Outcome.ub else
    .ret (PathResult.path (dir ++ (ascii "y.txt").take (maxPathLength - dir.length - 1)))) = _
  unfold maxPathLength
  rw [if_pos (by omega)]

theorem resourcePath_refused {loc : List UInt8} (h : ¬ ascii "file:/" <+: loc) :
    ∃ msg, resourcePath false (some loc) = .ret (.error msg) := by
  refine ⟨"The resourceLocation must start with \"file:/\" or \"file:///\"", ?_⟩
  unfold resourcePath
  simp only [Bool.false_eq_true, if_false]
  rw [if_neg, if_neg]
  · intro hc
    exact h (List.prefix_iff_eq_take.2 hc.symm)
  · intro hc
    apply h
    have h1 : ascii "file:///" <+: loc := List.prefix_iff_eq_take.2 hc.symm
    exact List.IsPrefix.trans (by decide) h1

theorem path_length {loc : Ptr UInt8} {p : List UInt8}
    (h : resourcePath false loc = .ret (.path p)) : p.length ≤ 4095 := by
  have key : ∀ l : List UInt8, (cstr (percentDecode (l.take 4095)) ++ (ascii "/y.txt").take
      (4096 - (cstr (percentDecode (l.take 4095))).length - 1)).length ≤ 4095 := by
    intro l
    have h1 : ∀ l : List UInt8, (percentDecode l).length ≤ l.length := by
      intro l
      induction l using percentDecode.induct with
      | case1 c a b rest hc ih =>
        rw [percentDecode, if_pos hc]; simp only [List.length_cons]; omega
      | case2 c a b rest hc ih =>
        rw [percentDecode, if_neg hc]; simp only [List.length_cons] at ih ⊢; omega
      | case3 l h =>
        rw [percentDecode]
        · exact Nat.le_refl _
        · exact h
    have h2 : (cstr (percentDecode (l.take 4095))).length ≤ 4095 := by
      refine Nat.le_trans (List.takeWhile_sublist _).length_le (Nat.le_trans (h1 _) ?_)
      rw [List.length_take]; omega
    rw [List.length_append, List.length_take]
    omega
  unfold resourcePath at h
  split at h
  · simp at h
  · simp only [Bool.false_eq_true, if_false, maxPathLength] at h
    split at h
    · simp only [Outcome.ret.injEq, PathResult.path.injEq] at h
      rw [← h]; exact key _
    · split at h
      · simp only [Outcome.ret.injEq, PathResult.path.injEq] at h
        rw [← h]; exact key _
      · simp at h

end Verif.Resource
