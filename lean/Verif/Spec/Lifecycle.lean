import Verif.Importer.Lifecycle

/-!
# Specification: proper use of an importer instance

A library is loaded, an FMU is instantiated, its functions are called, and it is freed. At any time the
importer instance may be freed; it is not used after that.
-/

namespace Verif.Spec.Lifecycle
open Verif Verif.Importer.Lifecycle

/-- The functions of an FMU that a user calls between instantiation and release, FMI 2.0 specification, 2.1, 3.2, 4.2. -/
def functions2 (t : IType) : List String :=
  ["GetTypesPlatform", "GetVersion", "SetDebugLogging", "SetupExperiment", "EnterInitializationMode",
   "ExitInitializationMode", "Terminate", "Reset", "GetReal", "GetInteger", "GetBoolean", "GetString",
   "SetReal", "SetInteger", "SetBoolean", "SetString", "GetFMUstate", "SetFMUstate", "FreeFMUstate",
   "SerializedFMUstateSize", "SerializeFMUstate", "DeSerializeFMUstate", "GetDirectionalDerivative"] ++
  (match t with
   | .modelExchange => ["EnterEventMode", "NewDiscreteStates", "EnterContinuousTimeMode",
      "CompletedIntegratorStep", "SetTime", "SetContinuousStates", "GetDerivatives", "GetEventIndicators",
      "GetContinuousStates", "GetNominalsOfContinuousStates"]
   | _ => ["SetRealInputDerivatives", "GetRealOutputDerivatives", "DoStep", "CancelStep", "GetStatus",
      "GetRealStatus", "GetIntegerStatus", "GetBooleanStatus", "GetStringStatus"])

/-- The same for FMI 3.0 (specification, 2.2, 2.3, 3.2, 4.2, 5.2). -/
def functions3 : List String :=
  ["GetVersion", "SetDebugLogging", "EnterInitializationMode", "ExitInitializationMode", "EnterEventMode",
   "Terminate", "Reset", "GetFloat32", "GetFloat64", "GetInt8", "GetUInt8", "GetInt16", "GetUInt16",
   "GetInt32", "GetUInt32", "GetInt64", "GetUInt64", "GetBoolean", "GetString", "GetBinary", "GetClock",
   "SetFloat32", "SetFloat64", "SetInt8", "SetUInt8", "SetInt16", "SetUInt16", "SetInt32", "SetUInt32",
   "SetInt64", "SetUInt64", "SetBoolean", "SetString", "SetBinary", "SetClock",
   "GetNumberOfVariableDependencies", "GetVariableDependencies", "GetFMUState", "SetFMUState",
   "FreeFMUState", "SerializedFMUStateSize", "SerializeFMUState", "DeserializeFMUState",
   "GetDirectionalDerivative", "GetAdjointDerivative", "EnterConfigurationMode", "ExitConfigurationMode",
   "GetIntervalDecimal", "GetIntervalFraction", "GetShiftDecimal", "GetShiftFraction", "SetIntervalDecimal",
   "SetIntervalFraction", "SetShiftDecimal", "SetShiftFraction", "EvaluateDiscreteStates",
   "UpdateDiscreteStates", "EnterContinuousTimeMode", "CompletedIntegratorStep", "SetTime",
   "SetContinuousStates", "GetContinuousStateDerivatives", "GetEventIndicators", "GetContinuousStates",
   "GetNominalsOfContinuousStates", "GetNumberOfEventIndicators", "GetNumberOfContinuousStates",
   "EnterStepMode", "GetOutputDerivatives", "DoStep", "ActivateModelPartition"]

/-- The functions of an FMU of a version and kind. -/
def functions : Version → IType → List String
  | .fmi2, t => functions2 t
  | .fmi3, _ => functions3

/-- Where an importer instance is in its life. After a failed instantiation it can only be freed. -/
inductive Phase
  | created
  | loaded
  | instantiated (v : Version) (t : IType)
  | released
  | failed
  deriving DecidableEq, Repr

/-- What the user may do. There is no Scheduled Execution in FMI 2.0. -/
def Phase.allows : Phase → Op → Prop
  | .created, .load => True
  | .loaded, .instantiate v t => v = .fmi2 → t ≠ .scheduledExecution
  | .instantiated v t, .call w f => w = v ∧ f ∈ functions v t
  | .instantiated v _, .freeComponent w => w = v
  | _, _ => False

/-- The phase after an operation that returned a status. Loading may be tried again. -/
def Phase.next : Phase → Op → Status → Phase
  | .created, .load, .OK => .loaded
  | .loaded, .instantiate v t, .OK => .instantiated v t
  | .loaded, .instantiate _ _, _ => .failed
  | .instantiated _ _, .freeComponent _, _ => .released
  | ph, _, _ => ph

/-- In this phase the FMU holds no instance. -/
def Phase.free : Phase → Prop
  | .instantiated _ _ => False
  | _ => True

/-- The states of proper use with operations from `use`: an importer instance is created with a name, with a
function for messages if `logMessage`, and with a function that logs calls if `logFunctionCall`;
then the user does what is allowed. -/
inductive Run (env : Env) (s₀ : Sys) (logMessage logFunctionCall : Bool) (use : Op → Prop) :
    Phase → Sys → Inst → Prop
  | create {i : Inst} {s : Sys} :
      FMICreateInstance env s₀ true logMessage logFunctionCall = .ret (some i, s) →
      Run env s₀ logMessage logFunctionCall use .created s i
  | step {ph : Phase} {s s' : Sys} {i i' : Inst} {op : Op} {st : Status} :
      Run env s₀ logMessage logFunctionCall use ph s i → ph.allows op → use op →
      step env s i op = .ret ((s', i'), st) →
      Run env s₀ logMessage logFunctionCall use (ph.next op st) s' i'

/-- Handles in use are below the next one. -/
def Valid (s : Sys) : Prop :=
  (∀ a, s.memory.live a = true → a < s.memory.next) ∧
  (∀ a, s.libraries.live a = true → a < s.libraries.next) ∧
  (∀ a, s.components.live a = true → a < s.components.next)

/-- The same memory is allocated and the same libraries are open. -/
def SameResources (s s' : Sys) : Prop :=
  s'.memory.live = s.memory.live ∧ s'.libraries.live = s.libraries.live

/-- The FMUs hold the same instances. -/
def SameComponents (s s' : Sys) : Prop := s'.components.live = s.components.live

/-- Nothing goes wrong in this state: what is allowed can be done, a function of the FMU is called once and
its status is returned, and the importer instance can be freed, after which the same memory is allocated
and the same libraries are open as before it was created, and the FMUs hold the same instances
unless this one had not been freed. -/
def Safe (env : Env) (s₀ : Sys) (use : Op → Prop) (ph : Phase) (s : Sys) (i : Inst) : Prop :=
  (∀ op, ph.allows op → use op → ∃ r, step env s i op = .ret r) ∧
  (∀ v f, ph.allows (.call v f) → use (.call v f) → f ≠ "GetVersion" → f ≠ "GetTypesPlatform" →
    ∃ s' i', step env s i (.call v f) = .ret ((s', i'), env.status s.calls) ∧ s'.calls = s.calls + 1) ∧
  ∃ s', FMIFreeInstance s i = .ret s' ∧ SameResources s₀ s' ∧ (ph.free → SameComponents s₀ s')

/-- The functions that create and free instances. -/
def constructors : Version → List String
  | .fmi2 => ["Instantiate", "FreeInstance"]
  | .fmi3 => ["InstantiateModelExchange", "InstantiateCoSimulation", "InstantiateScheduledExecution", "FreeInstance"]

/-- Every library that is opened exports all functions of FMUs of this version and kind. -/
def Complete (env : Env) (v : Version) (t : IType) : Prop :=
  ∀ k exports, env.dlopen k = some exports → ∀ f ∈ constructors v ++ functions v t, exports (v.pre ++ f) = true

end Verif.Spec.Lifecycle
