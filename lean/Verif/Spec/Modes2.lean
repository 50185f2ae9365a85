import Verif.History2

/-!
# Specification: modes of an FMI 2.0 instance

Written from the state machine of the FMI 2.0 standard and the table in src/fmi2Functions.c 87-166,
as lists of modes (no bit masks).
-/

namespace Verif
namespace FMI2.Spec

/-- The modes in which an FMI 2.0 function may be called. -/
def allowedIn : Fn → List Mode
  | .setDebugLogging => [.instantiated, .initializationMode, .eventMode, .continuousTimeMode,
      .stepComplete, .stepInProgress, .stepFailed, .stepCanceled, .terminated]
  | .setupExperiment | .enterInitializationMode => [.instantiated]
  | .exitInitializationMode => [.initializationMode]
  | .terminate => [.eventMode, .continuousTimeMode, .stepComplete, .stepFailed]
  | .reset | .getFMUstate | .setFMUstate | .freeFMUstate | .serializedFMUstateSize
  | .serializeFMUstate | .deSerializeFMUstate => [.instantiated, .initializationMode, .eventMode,
      .continuousTimeMode, .stepComplete, .stepFailed, .stepCanceled, .terminated]
  | .getReal | .getInteger | .getBoolean | .getString | .getDirectionalDerivative =>
      [.initializationMode, .eventMode, .continuousTimeMode, .stepComplete, .stepFailed,
        .stepCanceled, .terminated]
  | .setReal => [.instantiated, .initializationMode, .eventMode, .continuousTimeMode,
      .stepComplete]
  | .setInteger | .setBoolean | .setString =>
      [.instantiated, .initializationMode, .eventMode, .stepComplete]
  | .enterEventMode | .setTime => [.eventMode, .continuousTimeMode]
  | .newDiscreteStates | .enterContinuousTimeMode => [.eventMode]
  | .completedIntegratorStep | .setContinuousStates => [.continuousTimeMode]
  | .getEventIndicators | .getContinuousStates =>
      [.initializationMode, .eventMode, .continuousTimeMode, .terminated]
  | .getDerivatives => [.eventMode, .continuousTimeMode, .terminated]
  | .getNominals => [.instantiated, .eventMode, .continuousTimeMode, .terminated]
  | .setRealInputDerivatives => [.instantiated, .initializationMode, .stepComplete]
  | .getRealOutputDerivatives => [.stepComplete, .stepFailed, .stepCanceled, .terminated]
  | .doStep => [.stepComplete]
  | .cancelStep => [.stepInProgress]
  | .getStatus | .getRealStatus | .getIntegerStatus | .getBooleanStatus | .getStringStatus =>
      [.stepComplete, .stepInProgress, .stepFailed, .terminated]

/-- The mode after a successful call (restoring an FMU state is described separately). -/
def nextMode (fn : Fn) (typ : IType) (mode : Mode) : Mode :=
  match fn with
  | .enterInitializationMode => .initializationMode
  | .exitInitializationMode => if typ = .modelExchange then .eventMode else .stepComplete
  | .terminate => .terminated
  | .reset => .instantiated
  | .enterEventMode => .eventMode
  | .enterContinuousTimeMode => .continuousTimeMode
  | _ => mode

/-- The output arguments of a call before the call. -/
def outputs {F : Type} : Op F → Out F
  | .getReal _ _ v | .getRealOutputDerivatives _ _ _ v | .getDirectionalDerivative _ _ _ _ _ v
  | .getDerivatives v _ | .getEventIndicators v _ | .getContinuousStates v _ | .getNominals v _ =>
    .reals v
  | .getInteger _ _ v | .getBoolean _ _ v => .ints v
  | .getString _ _ v => .strs v
  | .serializedFMUstateSize v => .size v
  | .getRealStatus _ v => .real v
  | .getBooleanStatus _ v => .bool v
  | .newDiscreteStates v => .info v
  | .completedIntegratorStep a b => .flags a b
  | _ => .unit

/-- `w'` differs from `w` only in the mode, which is `Terminated`, and in at most one more error
message. -/
def Refused {F D : Type} (w w' : World F D) : Prop :=
  ∃ log : List (Ev F), log.length ≤ 1 ∧ (∀ e ∈ log, ∃ msg, e = .log .Error "logStatusError" msg) ∧
    w' = { w with inst := { w.inst with
      ctx := { w.inst.ctx with state := .terminated }
      mv := { w.inst.mv with trace := w.inst.mv.trace ++ log } } }

/-- The mode after a successful call: restoring a saved state restores its mode. -/
def modeAfter {F D : Type} (w : World F D) (op : Op F) : Mode :=
  match op with
  | .setFMUstate i =>
    match w.slots i with
    | some s => s.ctx.state
    | none => w.inst.ctx.state
  | op => nextMode op.fn w.inst.ctx.typ w.inst.ctx.state

end FMI2.Spec
end Verif
