import Verif.Models.VanDerPol
import Verif.Models.Roberts
import Verif.Spec.Observe
import Verif.XRat

/-! # Specification: explicit Euler steps of VanDerPol and Roberts -/

namespace Verif

/-- The states and the parameter of the Van der Pol oscillator. -/
structure Oscillator where
  x0 : Rat
  x1 : Rat
  mu : Rat
  deriving DecidableEq

/-- An explicit Euler step of size 0.01 of `der(x0) = x1`, `der(x1) = mu (1 - x0²) x1 - x0`. -/
def Oscillator.next (s : Oscillator) : Oscillator :=
  { s with x0 := s.x0 + 1 / 100 * s.x1, x1 := s.x1 + 1 / 100 * (s.mu * (1 - s.x0 ^ 2) * s.x1 - s.x0) }

/-- The importer reads these values of `x0`, `der(x0)`, `x1`, `der(x1)` and `mu` (value references 1 to 5). -/
structure FMI2.ReadsOscillator (w : FMI2.World XRat (VanDerPol.Data XRat)) (s : Oscillator) : Prop where
  x0 : ReadsReal VanDerPol.model w 1 (.fin s.x0)
  der_x0 : ReadsReal VanDerPol.model w 2 (.fin s.x1)
  x1 : ReadsReal VanDerPol.model w 3 (.fin s.x1)
  der_x1 : ReadsReal VanDerPol.model w 4 (.fin (s.mu * (1 - s.x0 ^ 2) * s.x1 - s.x0))
  mu : ReadsReal VanDerPol.model w 5 (.fin s.mu)

/-- The importer reads these values of `x0`, `der(x0)`, `x1`, `der(x1)` and `mu` (value references 1 to 5). -/
structure FMI3.ReadsOscillator (w : FMI3.World XRat (VanDerPol.Data XRat)) (s : Oscillator) : Prop where
  x0 : Reads VanDerPol.model w .float64 1 (.fin s.x0)
  der_x0 : Reads VanDerPol.model w .float64 2 (.fin s.x1)
  x1 : Reads VanDerPol.model w .float64 3 (.fin s.x1)
  der_x1 : Reads VanDerPol.model w .float64 4 (.fin (s.mu * (1 - s.x0 ^ 2) * s.x1 - s.x0))
  mu : Reads VanDerPol.model w .float64 5 (.fin s.mu)

/-- The concentrations of the three species of Robertson's reaction. -/
structure Reaction where
  y1 : Rat
  y2 : Rat
  y3 : Rat
  deriving DecidableEq

/-- An explicit Euler step of size 10⁻⁶ of Robertson's reaction; the third concentration follows from the conservation of mass. -/
def Reaction.next (s : Reaction) : Reaction :=
  let y1 := s.y1 + 1 / 1000000 * (-(4 / 100) * s.y1 + 10000 * s.y2 * s.y3)
  let y2 := s.y2 + 1 / 1000000 * (4 / 100 * s.y1 - 10000 * s.y2 * s.y3 - 30000000 * s.y2 ^ 2)
  ⟨y1, y2, 1 - y1 - y2⟩

/-- The importer reads these values of `y1`, `y2`, `y3` (value references 2, 4, 6), and the FMU is in ODE mode: the variable
`dae` (value reference 1) is false. -/
structure FMI3.ReadsReaction (w : FMI3.World XRat (Roberts.Data XRat)) (s : Reaction) : Prop where
  dae : Reads Roberts.model w .boolean 1 false
  y1 : Reads Roberts.model w .float64 2 (.fin s.y1)
  y2 : Reads Roberts.model w .float64 4 (.fin s.y2)
  y3 : Reads Roberts.model w .float64 6 (.fin s.y3)

/-- Physically meaningful concentrations, with the intermediate product below 1/31. -/
def Reaction.Physical (s : Reaction) : Prop := 0 ≤ s.y1 ∧ 0 ≤ s.y2 ∧ s.y2 ≤ 1 / 31 ∧ 0 ≤ s.y3 ∧ s.y1 + s.y2 + s.y3 = 1

end Verif
