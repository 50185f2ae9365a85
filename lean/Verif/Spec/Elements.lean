/-!
# Specification: the number of elements of the variables of the StateSpace FMU

The `Dimension` elements of StateSpace/FMI3.xml 36-66, in terms of the structural parameters `m`
(inputs), `n` (states) and `r` (outputs). All other FMUs have scalar variables only.
-/

namespace Verif

/-- The number of elements of the Float64 variable `vr` of the StateSpace FMU. -/
def StateSpace.elements (m n r : Nat) (vr : Nat) : Nat :=
  match vr with
  | 4 => n * n   -- A
  | 5 => n * m   -- B
  | 6 => r * n   -- C
  | 7 => r * m   -- D
  | 8 => n       -- x0
  | 9 => m       -- u
  | 10 => r      -- y
  | 11 => n      -- x
  | 12 => n      -- der(x)
  | _ => 1

end Verif
