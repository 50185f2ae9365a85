import Verif.History3

/-!
# Specification: modes of an FMI 3.0 instance

Written from the state machine of the FMI 3.0 standard and the table in src/fmi3Functions.c 94-200,
as lists of modes (no bit masks).
-/

namespace Verif
namespace FMI3.Spec

/-- The modes an FMI 3.0 instance can be in, include/model.h 48-61. -/
def anyMode : List Mode := [.startAndEnd, .configurationMode, .instantiated, .initializationMode,
  .eventMode, .continuousTimeMode, .stepMode, .clockActivationMode, .stepDiscarded,
  .reconfigurationMode, .intermediateUpdateMode, .terminated]

/-- The modes in which an FMI 3.0 function may be called. The unimplemented functions have no mode
check. -/
def allowedIn : Fn → List Mode
  | .setDebugLogging | .reset | .getFMUState | .setFMUState | .freeFMUState
  | .serializedFMUStateSize | .serializeFMUState | .deserializeFMUState | .getClock | .setClock
  | .getIntervalDecimal | .updateDiscreteStates | .getNumberOfEventIndicators
  | .getNumberOfContinuousStates | .notImplemented _ => anyMode
  | .enterInitializationMode => [.instantiated]
  | .exitInitializationMode => [.initializationMode]
  | .enterEventMode => [.continuousTimeMode, .stepMode]
  | .terminate => [.continuousTimeMode, .stepMode, .stepDiscarded, .eventMode,
      .clockActivationMode, .reconfigurationMode]
  | .get _ | .set .float32 | .set .float64 => [.instantiated, .initializationMode,
      .configurationMode, .reconfigurationMode, .eventMode, .continuousTimeMode, .stepMode,
      .clockActivationMode, .intermediateUpdateMode, .terminated]
  | .set _ => [.instantiated, .configurationMode, .reconfigurationMode, .initializationMode,
      .eventMode, .stepMode, .clockActivationMode, .terminated]
  | .getDirectionalDerivative | .getAdjointDerivative =>
      [.initializationMode, .stepMode, .eventMode, .continuousTimeMode, .terminated]
  | .enterConfigurationMode => [.instantiated, .stepMode, .eventMode, .clockActivationMode]
  | .exitConfigurationMode => [.configurationMode, .reconfigurationMode]
  | .enterContinuousTimeMode => [.eventMode]
  | .completedIntegratorStep | .setContinuousStates => [.continuousTimeMode]
  | .setTime => [.eventMode, .continuousTimeMode]
  | .getDerivatives | .getEventIndicators | .getContinuousStates | .getNominals =>
      [.initializationMode, .eventMode, .continuousTimeMode, .terminated]
  | .enterStepMode => [.initializationMode, .eventMode]
  | .getOutputDerivatives => [.stepMode, .stepDiscarded, .terminated]
  | .doStep => [.stepMode]
  | .activateModelPartition => [.clockActivationMode]

/-- The mode after a successful call (restoring an FMU state is described separately);
`eventModeUsed` as requested at instantiation. -/
def nextMode (fn : Fn) (typ : IType) (eventModeUsed : Bool) (mode : Mode) : Mode :=
  match fn with
  | .enterInitializationMode => .initializationMode
  | .exitInitializationMode =>
    match typ with
    | .modelExchange => .eventMode
    | .coSimulation => if eventModeUsed then .eventMode else .stepMode
    | .scheduledExecution => .clockActivationMode
  | .terminate => .terminated
  | .reset => .instantiated
  | .enterEventMode => .eventMode
  | .enterContinuousTimeMode => .continuousTimeMode
  | .enterStepMode => .stepMode
  | .enterConfigurationMode =>
    if mode = .instantiated then .configurationMode else .reconfigurationMode
  | .exitConfigurationMode =>
    if mode = .configurationMode then .instantiated
    else match typ with
      | .modelExchange => .eventMode
      | .coSimulation => .stepMode
      | .scheduledExecution => .clockActivationMode
  | _ => mode

/-- The output arguments of a call before the call. -/
def outputs {F : Type} : Op F → Out F
  | .get t _ _ v _ => .values t v
  | .getClock _ _ v => .bools v
  | .getOutputDerivatives _ _ _ v | .getDirectionalDerivative _ _ _ _ _ v
  | .getAdjointDerivative _ _ _ _ _ v
  | .getDerivatives v _ | .getEventIndicators v _ | .getContinuousStates v _ | .getNominals v _ =>
    .reals v
  | .serializedFMUStateSize v | .getNumberOfEventIndicators v | .getNumberOfContinuousStates v =>
    .size v
  | .completedIntegratorStep a b => .flags a b
  | .getIntervalDecimal _ _ i q => .intervals i q
  | .updateDiscreteStates o => .event o
  | .doStep _ _ o => .step o
  | _ => .unit

/-- `w'` differs from `w` only in the mode, which is `Terminated`, and in at most one more error
message. -/
def Refused {F D : Type} (w w' : World F D) : Prop :=
  ∃ log : List (Ev F), log.length ≤ 1 ∧ (∀ e ∈ log, ∃ msg, e = .log .Error "logStatusError" msg) ∧
    w' = { w with inst := { w.inst with
      ctx := { w.inst.ctx with state := .terminated }
      mv := { w.inst.mv with trace := w.inst.mv.trace ++ log } } }

/-- The mode after a successful call: restoring a saved state restores its mode. -/
def modeAfter {F D : Type} (w : World F D) (op : Op F) : Mode :=
  match op with
  | .setFMUState i =>
    match w.slots i with
    | some s => s.ctx.state
    | none => w.inst.ctx.state
  | op => nextMode op.fn w.inst.ctx.typ w.inst.eventModeUsed w.inst.ctx.state

end FMI3.Spec
end Verif
