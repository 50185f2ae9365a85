import Verif.Lemmas.Close

/-!
# C47: the time comparison
-/

namespace Verif

/-- For numbers the comparison of communication points decides `Close`. -/
theorem C47_decides (a b : Rat) : isClose (XRat.fin a) (.fin b) = true ↔ Close a b := isClose_fin a b

/-- Outside the numbers the comparison misbehaves: an infinity is close to every number, and not to
itself. -/
theorem C47_infinite (a : Rat) : isClose XRat.pinf (.fin a) = true ∧
    isClose XRat.ninf (.fin a) = true ∧ isClose (.fin a) XRat.pinf = true ∧
    isClose (.fin a) XRat.ninf = true ∧
    isClose XRat.pinf .pinf = false ∧ isClose XRat.ninf .ninf = false := by
  have e : (epsilon *. XRat.pinf) = .pinf := by decide +kernel
  have e1 : ∀ q, fmiMax XRat.pinf (.fin q) = .pinf := fun _ => rfl
  have e2 : ∀ q, fmiMax (.fin q) XRat.pinf = .pinf := fun _ => rfl
  have h : ∀ x y : XRat, (epsilon *. fmiMax (fmiAbs x) (fmiAbs y)) = .pinf →
      fmiAbs (x -. y) = .pinf → isClose x y = true := by
    intro x y h1 h2
    simp only [isClose, h1, h2]
    rfl
  refine ⟨h _ _ ?_ rfl, h _ _ ?_ rfl, h _ _ ?_ rfl, h _ _ ?_ rfl, by decide +kernel,
    by decide +kernel⟩
  · rw [fmiAbs_fin]; exact e
  · rw [fmiAbs_fin]; exact e
  · rw [fmiAbs_fin]; exact e
  · rw [fmiAbs_fin]; exact e

/-- It is symmetric, for all numbers, infinities and NaN. -/
theorem C47_symmetric (a b : XRat) : isClose a b = isClose b a := by
  cases a <;> cases b <;> first
    | rfl
    | simp only [(C47_infinite _).1, (C47_infinite _).2.1, (C47_infinite _).2.2.1,
        (C47_infinite _).2.2.2.1]
    | skip
  rw [Bool.eq_iff_iff, isClose_fin, isClose_fin]
  exact ⟨.symm, .symm⟩

/-- A number is close to itself. -/
theorem C47_reflexive (a : Rat) : isClose (XRat.fin a) (.fin a) = true := (isClose_fin _ _).2 (.refl a)

/-- Numbers further apart than both tolerances are not close. -/
theorem C47_apart {a b : Rat} (h1 : 1 / 100000 < |a - b|)
    (h2 : 1 / 100000 * max |a| |b| < |a - b|) : isClose (XRat.fin a) (.fin b) = false := by
  rw [isClose_fin_false]
  rintro (h | h)
  · exact absurd h (not_le.2 h1)
  · exact absurd h (not_le.2 h2)

/-- Closeness is inherited by the numbers in between. -/
theorem C47_between {a b c : Rat} (h : isClose (XRat.fin a) (.fin b) = true) (h1 : a ≤ c)
    (h2 : c ≤ b) :
    isClose (XRat.fin a) (.fin c) = true ∧ isClose (XRat.fin c) (.fin b) = true := by
  rw [isClose_fin] at h
  rw [isClose_fin, isClose_fin]
  exact ⟨h.between h1 h2, h.between' h1 h2⟩

/-- NaN is close to nothing. -/
theorem C47_nan (a : XRat) : isClose .nan a = false := by cases a <;> rfl

/-- Non-vacuity: times that differ in the sixth digit are close, in the third are not. -/
example : isClose (XRat.fin 1) (.fin (1000001 / 1000000)) = true ∧
    isClose (XRat.fin 1) (.fin (1001 / 1000)) = false := by decide +kernel
example : (1 / 100000 : Rat) < |1 - 1001 / 1000| ∧
    1 / 100000 * max |(1 : Rat)| |1001 / 1000| < |1 - 1001 / 1000| := by decide +kernel
/-- At large times the relative tolerance dominates. -/
example : isClose (XRat.fin 1000000) (.fin 1000010) = true := by decide +kernel

end Verif
