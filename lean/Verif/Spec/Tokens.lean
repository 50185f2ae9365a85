import Verif.Spec.Capabilities

/-!
# Specification: the FMUs with their names and instantiation tokens
-/

namespace Verif
variable {F : Type} [Arith F]

namespace FMI2

/-- The model descriptions for FMI 2.0 with the names of the FMUs, FMI2.xml. -/
def guids : List (String × String) := [("BouncingBall", "{1AE5E10D-9521-4DE3-80B9-D0EAAA7D5AF1}"), ("Dahlquist", "{221063D2-EF4A-45FE-B954-B5BFEEA9A59B}"),
  ("Feedthrough", "{37B954F1-CC86-4D8F-B97F-C7C36F6670D2}"), ("Resource", "{7b9c2114-2ce5-4076-a138-2cbc69e069e5}"), ("Stair", "{BD403596-3166-4232-ABC2-132BDF73E644}"),
  ("VanDerPol", "{BD403596-3166-4232-ABC2-132BDF73E644}")]

/-- The libraries for FMI 2.0 with the names of the FMUs. -/
inductive Library : {D : Type} → String → Model F D → Prop
  | bouncingBall : Library "BouncingBall" BouncingBall.model
  | dahlquist : Library "Dahlquist" Dahlquist.model
  | feedthrough : Library "Feedthrough" (Feedthrough.model false)
  | resource (fs : Resource.FileSystem) : Library "Resource" (Resource.model false fs)
  | stair : Library "Stair" Stair.model
  | vanDerPol : Library "VanDerPol" VanDerPol.model

end FMI2

namespace FMI3

/-- The model descriptions for FMI 3.0 with the names of the FMUs, FMI3.xml. -/
def descriptions : List (String × Description3) := [("BouncingBall", .bouncingBall), ("Clocks", .clocks), ("Dahlquist", .dahlquist), ("Feedthrough", .feedthrough), ("Resource", .resource),
  ("Roberts", .roberts), ("Stair", .stair), ("StateSpace", .stateSpace), ("VanDerPol", .vanDerPol)]

/-- The libraries for FMI 3.0 with the names of the FMUs. -/
inductive Library : {D : Type} → String → Model F D → Prop
  | bouncingBall : Library "BouncingBall" BouncingBall.model
  | clocks : Library "Clocks" Clocks.model
  | dahlquist : Library "Dahlquist" Dahlquist.model
  | feedthrough : Library "Feedthrough" (Feedthrough.model true)
  | resource (fs : Resource.FileSystem) : Library "Resource" (Resource.model true fs)
  | roberts : Library "Roberts" Roberts.model
  | stair : Library "Stair" Stair.model
  | stateSpace : Library "StateSpace" StateSpace.model
  | vanDerPol : Library "VanDerPol" VanDerPol.model

end FMI3
end Verif
