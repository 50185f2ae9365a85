import Verif.Models.StateSpace
import Verif.Spec.StateSpace
import Verif.XRat

/-! # Specification: explicit Euler steps of the linear system with three inputs, states and outputs -/

namespace Verif

/-- The matrices, the inputs and the states of `der(x) = A x + B u`, `y = C x + D u`. -/
structure LinearSystem where
  A : Fin 3 → Fin 3 → Rat
  B : Fin 3 → Fin 3 → Rat
  C : Fin 3 → Fin 3 → Rat
  D : Fin 3 → Fin 3 → Rat
  u : Fin 3 → Rat
  x : Fin 3 → Rat

namespace LinearSystem

/-- The scalar product. -/
def dot (a b : Fin 3 → Rat) : Rat := a 0 * b 0 + a 1 * b 1 + a 2 * b 2

/-- The derivatives of the states, `A x + B u`. -/
def der (s : LinearSystem) (i : Fin 3) : Rat := dot (s.A i) s.x + dot (s.B i) s.u

/-- The outputs, `C x + D u`. -/
def out (s : LinearSystem) (i : Fin 3) : Rat := dot (s.C i) s.x + dot (s.D i) s.u

/-- An explicit Euler step of size 0.001. -/
def next (s : LinearSystem) : LinearSystem := { s with x := fun i => s.x i + 1 / 1000 * s.der i }

/-- The elements of a vector. -/
def vector (v : Fin 3 → Rat) : List XRat := [.fin (v 0), .fin (v 1), .fin (v 2)]

/-- The elements of a matrix, row by row. -/
def matrix (M : Fin 3 → Fin 3 → Rat) : List XRat := vector (M 0) ++ vector (M 1) ++ vector (M 2)

end LinearSystem

/-- The importer reads the numbers 3, 3, 3 of inputs, states and outputs (value references 1 to 3), the matrices `A`, `B`, `C`, `D`
(4 to 7), the inputs `u` (9), the outputs `y` (10), the states `x` (11) and their derivatives (12) of this system. -/
structure FMI3.ReadsSystem (w : FMI3.World XRat (StateSpace.Data XRat)) (s : LinearSystem) : Prop where
  m : Reads StateSpace.model w .uint64 1 (3 : Int)
  n : Reads StateSpace.model w .uint64 2 (3 : Int)
  r : Reads StateSpace.model w .uint64 3 (3 : Int)
  A : ReadsArray StateSpace.model w 4 (LinearSystem.matrix s.A)
  B : ReadsArray StateSpace.model w 5 (LinearSystem.matrix s.B)
  C : ReadsArray StateSpace.model w 6 (LinearSystem.matrix s.C)
  D : ReadsArray StateSpace.model w 7 (LinearSystem.matrix s.D)
  u : ReadsArray StateSpace.model w 9 (LinearSystem.vector s.u)
  y : ReadsArray StateSpace.model w 10 (LinearSystem.vector s.out)
  x : ReadsArray StateSpace.model w 11 (LinearSystem.vector s.x)
  der : ReadsArray StateSpace.model w 12 (LinearSystem.vector s.der)

end Verif
