import Verif.Spec.Close
import Verif.Spec.Expected

/-!
# Specification: the end of a communication step, and importers that chain their communication points
-/

namespace Verif

/-- With solver steps of size `h` the time `t` is close to the end point `q` of a communication step: less than a
solver step behind it, and not further ahead than the tolerance. -/
def Near (h q t : Rat) : Prop := q < t + h ∧ (t ≤ q ∨ Close t q)

variable {F : Type} [Arith F] [HasInf F]

/-- Every FMI 2.0 step succeeded and started exactly at the expected communication point. -/
def Clock.Chained2 (k : Clock F) : List (FMI2.Op F) → List (Status × FMI2.Out F) → Prop
  | op :: ops, (s, _) :: outs =>
    (∀ ccp h, op = .doStep ccp h → s = .OK ∧ ccp = k.expected) ∧
    (k.after2 op s).Chained2 ops outs
  | _, _ => True

/-- Every FMI 3.0 step succeeded, started exactly at the expected communication point, and did not ask to end the
simulation. -/
def Clock.Chained3 (k : Clock F) : List (FMI3.Op F) → List (Status × FMI3.Out F) → Prop
  | op :: ops, (s, o) :: outs =>
    (∀ ccp h out, op = .doStep ccp h out → s = .OK ∧ ccp = k.expected ∧ ¬ o.terminates) ∧
    (k.after3 op s o).Chained3 ops outs
  | _, _ => True

end Verif
