import Verif.History2
import Verif.History3
import Verif.RefFMUs

/-!
# Functions that read, and FMUs without files

Separate from the runtime: the lists below are read off the FMI standards.
-/

namespace Verif

/-- The FMI 2.0 functions that ask for values: variables, continuous states, derivatives, event
indicators, nominals, directional and output derivatives, and the status of the last step. -/
def FMI2.Spec.asks : FMI2.Fn → Bool
  | .getReal | .getInteger | .getBoolean | .getString | .getContinuousStates | .getDerivatives
  | .getEventIndicators | .getNominals | .getDirectionalDerivative | .getRealOutputDerivatives
  | .serializedFMUstateSize | .getStatus | .getRealStatus | .getIntegerStatus | .getBooleanStatus
  | .getStringStatus => true
  | _ => false

/-- The FMI 3.0 functions that ask for values. `fmi3GetClock` and `fmi3GetIntervalDecimal` are not
among them: the standard lets them consume the tick. -/
def FMI3.Spec.asks : FMI3.Fn → Bool
  | .get _ | .getContinuousStates | .getDerivatives | .getEventIndicators | .getNominals
  | .getNumberOfEventIndicators | .getNumberOfContinuousStates | .getDirectionalDerivative
  | .getAdjointDerivative | .getOutputDerivatives | .serializedFMUStateSize => true
  | _ => false

/-- The FMI 2.0 FMUs without a variable backed by a file: all but Resource. -/
inductive FileFree2 {F : Type} [Arith F] : {D : Type} → Model F D → Prop
  | bouncingBall : FileFree2 BouncingBall.model
  | dahlquist : FileFree2 Dahlquist.model
  | feedthrough : FileFree2 (Feedthrough.model false)
  | stair : FileFree2 Stair.model
  | vanDerPol : FileFree2 VanDerPol.model

/-- The FMI 3.0 FMUs without a variable backed by a file, except Roberts. -/
inductive FileFree3 {F : Type} [Arith F] : {D : Type} → Model F D → Prop
  | bouncingBall : FileFree3 BouncingBall.model
  | clocks : FileFree3 Clocks.model
  | dahlquist : FileFree3 Dahlquist.model
  | feedthrough : FileFree3 (Feedthrough.model true)
  | stair : FileFree3 Stair.model
  | stateSpace : FileFree3 StateSpace.model
  | vanDerPol : FileFree3 VanDerPol.model

theorem FileFree2.ref {F D : Type} [Arith F] {m : Model F D} (h : FileFree2 m) : RefFMU2 m := by
  cases h <;> constructor

theorem FileFree3.ref {F D : Type} [Arith F] {m : Model F D} (h : FileFree3 m) : RefFMU3 m := by
  cases h <;> constructor

end Verif
