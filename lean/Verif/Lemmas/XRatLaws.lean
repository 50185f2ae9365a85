import Verif.XRat
import Mathlib.Tactic.Ring
import Mathlib.Tactic.Linarith
import Mathlib.Algebra.Order.Ring.Rat

/-! # The extended rationals obey the laws of IEEE 754 comparisons and sums

A check of the instance `Arith XRat` that statements in exact arithmetic use. -/

namespace Verif.XRat

theorem lt_irrefl (a : XRat) : lt a a = false := by cases a <;> simp [lt]

theorem lt_nan_left (a : XRat) : lt nan a = false := by cases a <;> rfl
theorem lt_nan_right (a : XRat) : lt a nan = false := by cases a <;> rfl
theorem le_nan_left (a : XRat) : le nan a = false := by cases a <;> rfl
theorem le_nan_right (a : XRat) : le a nan = false := by cases a <;> rfl

theorem le_iff {a b : XRat} : le a b = true ↔ lt a b = true ∨ (a = b ∧ a ≠ nan) := by
  cases a <;> cases b <;> simp [le, lt, le_iff_lt_or_eq]

theorem lt_trans {a b c : XRat} (h1 : lt a b = true) (h2 : lt b c = true) : lt a c = true := by
  cases a <;> cases b <;> cases c <;> simp_all [lt]
  linarith

theorem le_trans {a b c : XRat} (h1 : le a b = true) (h2 : le b c = true) : le a c = true := by
  cases a <;> cases b <;> cases c <;> simp_all [le]
  linarith

theorem total {a b : XRat} (ha : a ≠ nan) (hb : b ≠ nan) : lt a b = true ∨ a = b ∨ lt b a = true := by
  cases a <;> cases b <;> simp_all [lt]
  exact lt_trichotomy _ _

theorem le_antisymm {a b : XRat} (h1 : le a b = true) (h2 : le b a = true) : a = b := by
  cases a <;> cases b <;> simp_all [le]
  linarith

theorem lt_pinf {a : XRat} : lt a pinf = true ↔ a = ninf ∨ ∃ q, a = fin q := by cases a <;> simp [lt]
theorem ninf_lt {a : XRat} : lt ninf a = true ↔ a = pinf ∨ ∃ q, a = fin q := by cases a <;> simp [lt]

theorem add_comm (a b : XRat) : add a b = add b a := by
  cases a <;> cases b <;> simp [add]
  ring

theorem mul_comm (a b : XRat) : mul a b = mul b a := by
  cases a <;> cases b <;> simp [mul]
  ring

theorem neg_neg (a : XRat) : neg (neg a) = a := by cases a <;> simp [neg]

theorem lt_neg (a b : XRat) : lt (neg a) (neg b) = lt b a := by
  cases a <;> cases b <;> simp [lt, neg]

theorem sub_eq (a b : XRat) : sub a b = add a (neg b) := by
  cases a <;> cases b <;> simp [sub, add, neg]
  ring

/-- Sums with infinities and NaN. -/
theorem add_special (q : Rat) : add (fin q) pinf = pinf ∧ add (fin q) ninf = ninf ∧ add pinf pinf = pinf ∧
    add ninf ninf = ninf ∧ add pinf ninf = nan ∧ (∀ a, add a nan = nan) :=
  ⟨rfl, rfl, rfl, rfl, rfl, fun a => by cases a <;> rfl⟩

/-- Products with infinities and NaN. -/
theorem mul_special {q : Rat} (hq : 0 < q) : mul (fin q) pinf = pinf ∧ mul (fin q) ninf = ninf ∧
    mul (fin (-q)) pinf = ninf ∧ mul (fin (-q)) ninf = pinf ∧ mul (fin 0) pinf = nan ∧ mul (fin 0) ninf = nan ∧
    mul pinf pinf = pinf ∧ mul pinf ninf = ninf ∧ mul ninf ninf = pinf ∧ (∀ a, mul a nan = nan) := by
  refine ⟨?_, ?_, ?_, ?_, ?_, ?_, rfl, rfl, rfl, fun a => by cases a <;> rfl⟩
  all_goals simp [mul, infMul, hq, hq.le]
  all_goals intro h; linarith

end Verif.XRat
