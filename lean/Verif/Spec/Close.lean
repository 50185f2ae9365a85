import Mathlib.Algebra.Order.Ring.Rat
import Mathlib.Algebra.Order.Field.Rat

/-!
# Specification: when two numbers count as the same point in time
-/

namespace Verif

/-- The tolerance, 1e-5. -/
def tol : Rat := 1 / 100000

/-- `a` and `b` differ by at most 1e-5, absolutely or relative to the larger magnitude. -/
def Close (a b : Rat) : Prop := |a - b| ≤ tol ∨ |a - b| ≤ tol * max |a| |b|

end Verif
