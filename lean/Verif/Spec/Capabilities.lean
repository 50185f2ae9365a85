import Verif.RefFMUs

/-!
# Specification: the capabilities that the model descriptions declare

An importer decides by the attributes of the model description which functions it may call and with which arguments. The tables below
transcribe the attributes of the files `FMI2.xml` and `FMI3.xml`; attributes that are absent have the default value of the standard.
-/

namespace Verif
variable {F : Type} [Arith F]

/-- The attributes of the element `ModelExchange` of `FMI3.xml` that say what the FMU can do. -/
structure ModelExchangeAttributes where
  canGetAndSetFMUState : Bool := false
  canSerializeFMUState : Bool := false
  providesDirectionalDerivatives : Bool := false
  providesAdjointDerivatives : Bool := false

/-- The attributes of the element `CoSimulation` of `FMI3.xml` that say what the FMU can do. -/
structure CoSimulationAttributes where
  canGetAndSetFMUState : Bool := false
  canSerializeFMUState : Bool := false
  providesDirectionalDerivatives : Bool := false
  providesAdjointDerivatives : Bool := false
  canHandleVariableCommunicationStepSize : Bool := false
  providesIntermediateUpdate : Bool := false
  mightReturnEarlyFromDoStep : Bool := false
  canReturnEarlyAfterIntermediateUpdate : Bool := false
  fixedInternalStepSize : Rat
  hasEventMode : Bool := false

/-- The interface types and the instantiation token of a model description for FMI 3.0. -/
structure Description3 where
  token : String
  modelExchange : Option ModelExchangeAttributes := none
  coSimulation : Option CoSimulationAttributes := none
  scheduledExecution : Bool := false

/-- The attributes of the element `ModelExchange` shared by all `FMI3.xml` that have it: they state that the FMU state can be got, set and
serialized. -/
def ModelExchangeAttributes.standard : ModelExchangeAttributes := { canGetAndSetFMUState := true, canSerializeFMUState := true }

/-- The attributes of the element `CoSimulation` shared by all `FMI3.xml` that have it. -/
def CoSimulationAttributes.standard (h : Rat) : CoSimulationAttributes :=
  { canGetAndSetFMUState := true, canSerializeFMUState := true, canHandleVariableCommunicationStepSize := true,
    providesIntermediateUpdate := true, canReturnEarlyAfterIntermediateUpdate := true, fixedInternalStepSize := h }

namespace Description3

/-- BouncingBall/FMI3.xml 7-23 -/
def bouncingBall : Description3 where
  token := "{1AE5E10D-9521-4DE3-80B9-D0EAAA7D5AF1}"
  modelExchange := some .standard
  coSimulation := some { CoSimulationAttributes.standard (1 / 1000) with mightReturnEarlyFromDoStep := true, hasEventMode := true }

/-- Clocks/FMI3.xml 2-3 -/
def clocks : Description3 where
  token := "{C5F142BA-B849-42DA-B4A1-4745BFF3BE28}"
  scheduledExecution := true

/-- Dahlquist/FMI3.xml 7-21 -/
def dahlquist : Description3 where
  token := "{221063D2-EF4A-45FE-B954-B5BFEEA9A59B}"
  modelExchange := some .standard
  coSimulation := some (.standard (1 / 10))

/-- Feedthrough/FMI3.xml 7-22 -/
def feedthrough : Description3 where
  token := "{37B954F1-CC86-4D8F-B97F-C7C36F6670D2}"
  modelExchange := some .standard
  coSimulation := some { CoSimulationAttributes.standard (1 / 10) with hasEventMode := true }

/-- Resource/FMI3.xml 7-21 -/
def resource : Description3 where
  token := "{7b9c2114-2ce5-4076-a138-2cbc69e069e5}"
  modelExchange := some .standard
  coSimulation := some (.standard 1)

/-- Roberts/FMI3.xml 7-25 -/
def roberts : Description3 where
  token := "{1AE5E10D-9521-4DE3-80B9-D0EAAA7D5AF2}"
  modelExchange := some { ModelExchangeAttributes.standard with providesDirectionalDerivatives := true, providesAdjointDerivatives := true }
  coSimulation := some { CoSimulationAttributes.standard (1 / 1000) with mightReturnEarlyFromDoStep := true, hasEventMode := true }

/-- Stair/FMI3.xml 7-22 -/
def stair : Description3 where
  token := "{BD403596-3166-4232-ABC2-132BDF73E644}"
  modelExchange := some .standard
  coSimulation := some { CoSimulationAttributes.standard (2 / 10) with hasEventMode := true }

/-- StateSpace/FMI3.xml 7-22 -/
def stateSpace : Description3 where
  token := "{D773325B-AB94-4630-BF85-643EB24FCB78}"
  modelExchange := some .standard
  coSimulation := some { CoSimulationAttributes.standard 1 with hasEventMode := true }

/-- VanDerPol/FMI3.xml 7-25 -/
def vanDerPol : Description3 where
  token := "{BD403596-3166-4232-ABC2-132BDF73E644}"
  modelExchange := some { ModelExchangeAttributes.standard with providesDirectionalDerivatives := true, providesAdjointDerivatives := true }
  coSimulation := some { CoSimulationAttributes.standard (1 / 100) with
    providesDirectionalDerivatives := true, providesAdjointDerivatives := true }

end Description3

/-- Each FMU for FMI 3.0 with its model description. -/
inductive FMI3.Promises : {D : Type} → Model F D → Description3 → Prop
  | bouncingBall : Promises BouncingBall.model .bouncingBall
  | clocks : Promises Clocks.model .clocks
  | dahlquist : Promises Dahlquist.model .dahlquist
  | feedthrough : Promises (Feedthrough.model true) .feedthrough
  | resource (fs : Resource.FileSystem) : Promises (Resource.model true fs) .resource
  | roberts : Promises Roberts.model .roberts
  | stair : Promises Stair.model .stair
  | stateSpace : Promises StateSpace.model .stateSpace
  | vanDerPol : Promises VanDerPol.model .vanDerPol

/-- The attributes of a model description for FMI 2.0. All have both interface types and state that the FMU state can be got, set and
serialized. -/
structure Description2 where
  guid : String
  /-- the attribute `providesDirectionalDerivative`, the same for both interface types -/
  providesDirectionalDerivative : Bool := false

/-- Each FMU for FMI 2.0 with its model description: BouncingBall/FMI2.xml 7-25, Dahlquist/FMI2.xml 7-25, Feedthrough/FMI2.xml 7-25,
Resource/FMI2.xml 7-25, Stair/FMI2.xml 7-25, VanDerPol/FMI2.xml 7-27. -/
inductive FMI2.Promises : {D : Type} → Model F D → Description2 → Prop
  | bouncingBall : Promises BouncingBall.model { guid := "{1AE5E10D-9521-4DE3-80B9-D0EAAA7D5AF1}" }
  | dahlquist : Promises Dahlquist.model { guid := "{221063D2-EF4A-45FE-B954-B5BFEEA9A59B}" }
  | feedthrough : Promises (Feedthrough.model false) { guid := "{37B954F1-CC86-4D8F-B97F-C7C36F6670D2}" }
  | resource (fs : Resource.FileSystem) : Promises (Resource.model false fs) { guid := "{7b9c2114-2ce5-4076-a138-2cbc69e069e5}" }
  | stair : Promises Stair.model { guid := "{BD403596-3166-4232-ABC2-132BDF73E644}" }
  | vanDerPol : Promises VanDerPol.model { guid := "{BD403596-3166-4232-ABC2-132BDF73E644}", providesDirectionalDerivative := true }

end Verif
