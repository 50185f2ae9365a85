import Verif.Spec.Close

/-!
# Specification: the results of the Stair FMU

The counter starts at 1 and counts the whole seconds; when it reaches 10, at 9 seconds, the simulation is over.
-/

namespace Verif

/-- The number of the stair at the time `t`. -/
def stair (t : Rat) : Int := 1 + t.floor

/-- The communication points `0, h, 2 h, …, N h` that lie before the end of the simulation. -/
def pointsBeforeEnd (h : Rat) (N : Nat) : List Rat := ((List.range (N + 1)).map fun (k : Nat) => (k : Rat) * h).filter (· < 9)

/-- The communication points are apart from the whole seconds: none of them lies so little before a whole second that the two are taken to be
the same time. -/
def ApartFromSeconds (h : Rat) (N : Nat) : Prop := ∀ k ≤ N, ∀ n : Nat, (k : Rat) * h < n → ¬ Close n (k * h)

/-- The counters that a program shows at the step `k` if a second takes `m` steps: at a whole second the one before the event and the one after it.
At 9 seconds the program shows only the one before. -/
def stairsAt (m k : Nat) : List Nat := (if m ∣ k ∧ 0 < k then [k / m] else []) ++ if k < 9 * m then [k / m + 1] else []

end Verif
