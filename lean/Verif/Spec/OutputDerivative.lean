import Verif.RefFMUs

/-!
# Specification: the outputs with a derivative

From BouncingBall/FMI2.xml 66-77 and BouncingBall/FMI3.xml 53-58: the outputs `h` (1) and `v` (3) are continuous states, and `der(h)` (2)
and `der(v)` (4) are the variables for their derivatives.
-/

namespace Verif.Spec

/-- The variable for the first derivative of an output of BouncingBall. -/
def derivativeOf : Nat → Option Nat
  | 1 => some 2
  | 3 => some 4
  | _ => none

end Verif.Spec

namespace Verif

/-- The FMUs built for FMI 2.0 other than BouncingBall. -/
inductive Unoffered2 {F : Type} [Arith F] : {D : Type} → Model F D → Prop
  | dahlquist : Unoffered2 Dahlquist.model
  | feedthrough : Unoffered2 (Feedthrough.model false)
  | resource (fs : Resource.FileSystem) : Unoffered2 (Resource.model false fs)
  | stair : Unoffered2 Stair.model
  | vanDerPol : Unoffered2 VanDerPol.model

/-- The FMUs built for FMI 3.0 other than BouncingBall. -/
inductive Unoffered3 {F : Type} [Arith F] : {D : Type} → Model F D → Prop
  | clocks : Unoffered3 Clocks.model
  | dahlquist : Unoffered3 Dahlquist.model
  | feedthrough : Unoffered3 (Feedthrough.model true)
  | resource (fs : Resource.FileSystem) : Unoffered3 (Resource.model true fs)
  | roberts : Unoffered3 Roberts.model
  | stair : Unoffered3 Stair.model
  | stateSpace : Unoffered3 StateSpace.model
  | vanDerPol : Unoffered3 VanDerPol.model

end Verif
