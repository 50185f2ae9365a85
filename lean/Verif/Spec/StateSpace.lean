import Verif.Spec.Observe
import Verif.RefFMUs

/-!
# Specification: the equations of the StateSpace FMU

The description of the FMU: `der(x) = A x + B u`, `y = C x + D u`, with `A` of `n` by `n`, `B` of `n` by `m`,
`C` of `r` by `n` and `D` of `r` by `m` elements, passed row by row.
-/

namespace Verif
variable {F : Type} [Arith F]

/-- `a + f 0 + … + f (n - 1)`, added from left to right. -/
def addUp (a : F) (f : Nat → F) : Nat → F
  | 0 => a
  | n + 1 => addUp a f n +. f n

/-- Element `i` of `M v` added to `a`, for a matrix with rows of `k` elements. -/
def addRow (a : F) (k : Nat) (M v : List F) (i : Nat) : F :=
  addUp a (fun j => M.getD (i * k + j) (Arith.lit 0) *. v.getD j (Arith.lit 0)) k

/-- Reading the array variable `vr` succeeds and gives the elements `l`. -/
def FMI3.ReadsArray [HasInf F] {D : Type} (m : Model F D) (w : World F D) (vr : Nat) (l : List F) : Prop :=
  ∀ fuel buf, buf.length = l.length → ∃ w',
    step m fuel w (.get .float64 (some [vr]) 1 (some buf) l.length) = .ret (w', .OK, .values .float64 (some l))

end Verif
