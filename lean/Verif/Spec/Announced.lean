import Verif.RefFMUs
import Verif.History2
import Verif.History3

/-!
# Specification: numbers of continuous states and event indicators announced by the FMUs
-/

namespace Verif
variable {F : Type} [Arith F]

/-- The number of continuous states (entries of `ModelStructure/Derivatives`) and of event indicators
(attribute `numberOfEventIndicators`) in the FMI2.xml files. -/
inductive FMI2.Announces : {D : Type} → Model F D → Nat → Nat → Prop
  | bouncingBall : FMI2.Announces BouncingBall.model 2 1
  | dahlquist : FMI2.Announces Dahlquist.model 1 0
  | feedthrough : FMI2.Announces (Feedthrough.model false) 0 0
  | resource (fs : Resource.FileSystem) : FMI2.Announces (Resource.model false fs) 0 0
  | stair : FMI2.Announces Stair.model 0 0
  | vanDerPol : FMI2.Announces VanDerPol.model 2 0

/-- The number of continuous states and event indicators in the FMI3.xml files. The one of StateSpace
depends on a structural parameter and is not listed. -/
inductive FMI3.Announces : {D : Type} → Model F D → Nat → Nat → Prop
  | bouncingBall : FMI3.Announces BouncingBall.model 2 1
  | clocks : FMI3.Announces Clocks.model 0 0
  | dahlquist : FMI3.Announces Dahlquist.model 1 0
  | feedthrough : FMI3.Announces (Feedthrough.model true) 0 0
  | resource (fs : Resource.FileSystem) : FMI3.Announces (Resource.model true fs) 0 0
  | roberts : FMI3.Announces Roberts.model 2 2
  | stair : FMI3.Announces Stair.model 0 0
  | vanDerPol : FMI3.Announces VanDerPol.model 2 0

/-- The FMI 2.0 calls that pass a vector of `n` continuous states, derivatives or nominal values in
the array `p`. -/
inductive FMI2.StateVector : FMI2.Op F → Ptr F → Nat → Prop
  | get (p n) : FMI2.StateVector (.getContinuousStates p n) p n
  | set (p n) : FMI2.StateVector (.setContinuousStates p n) p n
  | derivatives (p n) : FMI2.StateVector (.getDerivatives p n) p n
  | nominals (p n) : FMI2.StateVector (.getNominals p n) p n

/-- The FMI 3.0 calls that pass a vector of `n` continuous states, derivatives or nominal values in
the array `p`. -/
inductive FMI3.StateVector : FMI3.Op F → Ptr F → Nat → Prop
  | get (p n) : FMI3.StateVector (.getContinuousStates p n) p n
  | set (p n) : FMI3.StateVector (.setContinuousStates p n) p n
  | derivatives (p n) : FMI3.StateVector (.getDerivatives p n) p n
  | nominals (p n) : FMI3.StateVector (.getNominals p n) p n

end Verif
