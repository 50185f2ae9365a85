import Verif.History2
import Verif.History3

/-!
# Importer: the `FMI2*` and `FMI3*` wrapper functions, src/FMI2.c and src/FMI3.c

A wrapper function calls the API function of the same name in the FMU and returns its status. Some
of them also set the field `state` of `FMIInstance`. Not modelled here: logging, the field `status`,
and loading of the shared library.
-/

namespace Verif.Importer
open Verif

/-- `FMIState`, include/FMI.h 111-124. -/
inductive FMIState
  | startAndEnd | instantiated | initializationMode | terminated | configurationMode
  | reconfigurationMode | eventMode | continuousTimeMode | stepMode | clockActivationMode
  deriving DecidableEq, Repr

/-- The fields of `FMIInstance` that the wrapper functions use for the mode: `state`,
`interfaceType` and (FMI 3.0) `fmi3Functions->eventModeUsed`. include/FMI.h 144-179. -/
structure FMIInstance where
  state : FMIState
  interfaceType : IType
  eventModeUsed : Bool
  deriving DecidableEq, Repr

/-- An importer instance together with the world of the FMU instance. `component` of include/FMI.h 165 stands for the instance of the FMU. -/
structure Wrapped (W : Type) where
  instance' : FMIInstance
  world : W

section FMI2
variable {F D : Type}

/-- The instance after `FMI2Instantiate`, src/FMI2.c 241-244. -/
def FMI2Instantiated (t : IType) : FMIInstance := ⟨.instantiated, t, false⟩

/-- The assignment to `state` in the wrapper of an FMI 2.0 function: src/FMI2.c 271, 276, 281, 286,
389, 409. It is made before the FMU is called. -/
def FMI2State (i : FMIInstance) : FMI2.Fn → FMIState
  | .enterInitializationMode => .initializationMode
  | .exitInitializationMode => if i.interfaceType = .modelExchange then .eventMode else .stepMode
  | .terminate => .terminated
  | .reset => .instantiated
  | .enterEventMode => .eventMode
  | .enterContinuousTimeMode => .continuousTimeMode
  | _ => i.state

variable [Arith F] [HasInf F]

/-- A call through a wrapper function, src/FMI2.c 260-609. -/
def FMI2Call (m : Model F D) (fuel : Nat) (x : Wrapped (FMI2.World F D)) (op : FMI2.Op F) :
    Outcome (Wrapped (FMI2.World F D) × Status × FMI2.Out F) :=
  let i := { x.instance' with state := FMI2State x.instance' op.fn }
  FMI2.step m fuel x.world op >>- fun (w, s, o) => .ret (⟨i, w⟩, s, o)

/-- A sequence of calls through wrapper functions and the statuses they return. Any sequence of calls of src/FMI2.c 260-609. -/
def FMI2Calls (m : Model F D) (fuel : Nat) : Wrapped (FMI2.World F D) → List (FMI2.Op F) →
    Outcome (Wrapped (FMI2.World F D) × List Status)
  | x, [] => .ret (x, [])
  | x, op :: ops =>
    FMI2Call m fuel x op >>- fun (x, s, _) =>
    FMI2Calls m fuel x ops >>- fun (x, l) => .ret (x, s :: l)

end FMI2

section FMI3
variable {F D : Type}

/-- The instance after `FMI3InstantiateModelExchange`, `FMI3InstantiateCoSimulation` or
`FMI3InstantiateScheduledExecution`, src/FMI3.c 294-297, 332, 369-372, 436-439; `eventModeUsed` is only
set for Co-Simulation. -/
def FMI3Instantiated (t : IType) (eventModeUsed : Bool) : FMIInstance :=
  ⟨.instantiated, t, eventModeUsed⟩

/-- The assignment to `state` in the wrapper of an FMI 3.0 function: src/FMI3.c 467, 474-485, 488,
493, 498, 875, 879-902, 1014; `none` means that the wrapper returns `FMIError` without calling the
FMU. `FMI3EnterStepMode` (1144-1146) makes no assignment. -/
def FMI3State (i : FMIInstance) : FMI3.Fn → Option FMIState
  | .enterInitializationMode => some .initializationMode
  | .exitInitializationMode => some <|
    match i.interfaceType with
    | .modelExchange => .eventMode
    | .coSimulation => if i.eventModeUsed then .eventMode else .stepMode
    | .scheduledExecution => .clockActivationMode
  | .enterEventMode => some .eventMode
  | .terminate => some .terminated
  | .reset => some .instantiated
  | .enterConfigurationMode =>
    some (if i.state = .instantiated then .configurationMode else .reconfigurationMode)
  | .exitConfigurationMode =>
    match i.state with
    | .configurationMode => some .instantiated
    | .reconfigurationMode => some <|
      match i.interfaceType with
      | .modelExchange => .eventMode
      | .coSimulation => .stepMode
      | .scheduledExecution => .clockActivationMode
    | _ => none
  | .enterContinuousTimeMode => some .continuousTimeMode
  | _ => some i.state

variable [Arith F] [HasInf F]

/-- A call through a wrapper function, src/FMI3.c 459-1192. The output arguments are not shown. -/
def FMI3Call (m : Model F D) (fuel : Nat) (x : Wrapped (FMI3.World F D)) (op : FMI3.Op F) :
    Outcome (Wrapped (FMI3.World F D) × Status) :=
  match FMI3State x.instance' op.fn with
  | none => .ret (x, .Error)
  | some s =>
    let i := { x.instance' with state := s }
    FMI3.step m fuel x.world op >>- fun (w, s, _) => .ret (⟨i, w⟩, s)

/-- A sequence of calls through wrapper functions and the statuses they return. Any sequence of calls of src/FMI3.c 459-1192. -/
def FMI3Calls (m : Model F D) (fuel : Nat) : Wrapped (FMI3.World F D) → List (FMI3.Op F) →
    Outcome (Wrapped (FMI3.World F D) × List Status)
  | x, [] => .ret (x, [])
  | x, op :: ops =>
    FMI3Call m fuel x op >>- fun (x, s) =>
    FMI3Calls m fuel x ops >>- fun (x, l) => .ret (x, s :: l)

end FMI3
end Verif.Importer
