import Verif.Spec.Close
import Verif.Core
import Verif.XRat
import Mathlib.Tactic.Linarith
import Mathlib.Algebra.Order.Group.Abs

/-! # The comparison of times in exact arithmetic -/

namespace Verif

theorem fmiAbs_fin (a : Rat) : fmiAbs (XRat.fin a) = .fin |a| := by
  simp only [fmiAbs, XRat.lit_eq, XRat.le_fin, decide_eq_true_eq, XRat.neg_fin]
  split
  · next h => rw [abs_of_nonneg h]
  · next h => rw [abs_of_neg (not_le.1 h)]

theorem fmiMax_fin (a b : Rat) : fmiMax (XRat.fin a) (.fin b) = .fin (max a b) := by
  simp only [fmiMax, XRat.lt_fin, decide_eq_true_eq]
  split
  · next h => rw [max_eq_right h.le]
  · next h => rw [max_eq_left (not_lt.1 h)]

theorem isClose_fin (a b : Rat) : isClose (XRat.fin a) (.fin b) = true ↔ Close a b := by
  simp only [isClose, XRat.sub_fin, fmiAbs_fin, epsilon, XRat.lit_eq, XRat.le_fin, fmiMax_fin,
    XRat.mul_fin, decide_eq_true_eq, Close, tol]
  split
  · next h => exact ⟨fun _ => .inl h, fun _ => rfl⟩
  · next h => rw [decide_eq_true_eq, or_iff_right h]

theorem isClose_fin_false (a b : Rat) : isClose (XRat.fin a) (.fin b) = false ↔ ¬ Close a b := by
  rw [← isClose_fin]; simp

theorem Close.symm {a b : Rat} (h : Close a b) : Close b a := by
  unfold Close at *
  rwa [abs_sub_comm, max_comm]

theorem Close.refl (a : Rat) : Close a a := by
  left; simp [tol]

theorem Close.between {a b c : Rat} (h : Close a b) (h1 : a ≤ c) (h2 : c ≤ b) : Close a c := by
  have e1 : |a - b| = b - a := by rw [abs_sub_comm, abs_of_nonneg (by linarith)]
  have e2 : |a - c| = c - a := by rw [abs_sub_comm, abs_of_nonneg (by linarith)]
  unfold Close at *
  rw [e1] at h
  rw [e2]
  rcases h with h | h
  · left; linarith
  · simp only [tol] at *
    right
    rcases le_total |b| |a| with hb | hb
    · rw [max_eq_left hb] at h
      have := le_max_left |a| |c|
      linarith
    · rw [max_eq_right hb] at h
      rcases le_total 0 b with h0 | h0
      · rw [abs_of_nonneg h0] at h
        have : 0 ≤ a := by linarith
        have := le_max_right |a| |c|
        rw [abs_of_nonneg (by linarith : 0 ≤ c)] at this
        rw [abs_of_nonneg (by linarith : 0 ≤ c)]
        linarith
      · rw [abs_of_nonpos h0, abs_of_nonpos (by linarith)] at hb
        have := le_max_left |a| |c|
        rw [abs_of_nonpos (by linarith : a ≤ 0)] at *
        rw [abs_of_nonpos h0] at h
        linarith

theorem Close.between' {a b c : Rat} (h : Close a b) (h1 : a ≤ c) (h2 : c ≤ b) : Close c b := by
  -- reflect at 0
  have h' : Close (-b) (-a) := by
    unfold Close at *
    simpa [abs_neg, neg_add_eq_sub, max_comm] using h
  have := h'.between (c := -c) (by linarith) (by linarith)
  unfold Close at *
  simpa [abs_neg, neg_add_eq_sub, max_comm] using this

end Verif
