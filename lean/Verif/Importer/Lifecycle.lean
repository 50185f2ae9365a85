import Verif.Basic
import Verif.Core

/-!
# Importer: life of an `FMIInstance`

`FMICreateInstance`, `FMILoadPlatformBinary`, `FMIFreeInstance` (src/FMI.c 92-184), the loading of the
functions, `FMI2Instantiate`, `FMI2FreeInstance` (src/FMI2.c 38-60, 136-258), `loadSymbols3`,
`FMI3Instantiate*`, `FMI3FreeInstance` (src/FMI3.c 29-52, 122-457), the pointers that the other
wrapper functions use, and `setUp`, `tearDown` of examples/util.h 194-267.

The model follows what is allocated, opened and created, and which pointers are NULL. What the FMU
computes is not modelled here: the environment decides whether an allocation, the loading of a
library or an instantiation succeeds, which functions a library exports, and which status a
function of the FMU returns. Arguments other than the instance, and the mode (`state`), are left out;
they are in `Importer/Wrapper.lean`. This is the build for shared libraries on Linux and macOS.
-/

namespace Verif.Importer.Lifecycle
open Verif

/-- Handles of one kind: the next one that is given out, and which are in use. For example the blocks of `calloc`, src/FMI.c 94. -/
structure Pool where
  next : Nat
  live : Nat → Bool

/-- Give out a handle. For example `calloc`, src/FMI.c 94, and `dlopen`, 148. -/
def Pool.acquire (p : Pool) : Nat × Pool :=
  (p.next, ⟨p.next + 1, fun a => a == p.next || p.live a⟩)

/-- Take a handle back; undefined behaviour if it is not in use (for instance the second `free`).
For example `free`, src/FMI.c 87, and `dlclose`, 170. -/
def Pool.release (p : Pool) (a : Nat) : Outcome Pool :=
  if p.live a then .ret { p with live := fun b => b != a && p.live b } else .ub

/-- What the outside decides: whether the k-th allocation succeeds, the functions that the library
of the k-th `dlopen` exports (`none`: it fails), whether the k-th instantiation in the FMU succeeds,
and the status of the k-th call of a function of the FMU.
The answers of `calloc` and `strdup` (src/FMI.c 94, 106, 109), `dlopen` (148), `dlsym` (src/FMI3.c 46) and the functions of the FMU. -/
structure Env where
  alloc : Nat → Bool
  dlopen : Nat → Option (String → Bool)
  instantiate : Nat → Bool
  status : Nat → Status

/-- Blocks of memory, open libraries and instances in FMUs, and the number of attempts so far.
The objects that src/FMI.c 92-184 acquires and releases. -/
structure Sys where
  memory : Pool
  libraries : Pool
  components : Pool
  allocs : Nat
  opens : Nat
  instantiations : Nat
  calls : Nat

/-- `FMIInstance`, include/FMI.h 144-179: the instance itself, `logMessageBuffer`, `name`,
`fmi2Functions`, `fmi3Functions` (the block and the functions in it that are not NULL),
`libraryHandle` (with what it exports), `component`, whether `logMessage` and `logFunctionCall` are
not NULL, and `status`. `fmi1Functions` is never set. -/
structure Inst where
  block : Nat
  buffer : Option Nat
  name : Option Nat
  table2 : Option (Nat × List String)
  table3 : Option (Nat × List String)
  library : Option (Nat × (String → Bool))
  component : Option Nat
  logMessage : Bool
  logFunctionCall : Bool
  status : Status

/-- The FMI version that a function belongs to. The tables `fmi2Functions` and `fmi3Functions`, include/FMI.h 147-148. -/
inductive Version
  | fmi2 | fmi3
  deriving DecidableEq, Repr

/-- `calloc` and the allocation in `strdup`. src/FMI.c 45, 94, 106, 109. -/
def calloc (env : Env) (s : Sys) : Option Nat × Sys :=
  if env.alloc s.allocs then
    (some s.memory.acquire.1, { s with memory := s.memory.acquire.2, allocs := s.allocs + 1 })
  else (none, { s with allocs := s.allocs + 1 })

/-- `FMIFree`, src/FMI.c 84-90, of a pointer that is not NULL itself. -/
def free (s : Sys) (p : Option Nat) : Outcome Sys :=
  match p with
  | none => .ret s
  | some a => s.memory.release a >>- fun m => .ret { s with memory := m }

/-- `FMICreateInstance`, src/FMI.c 92-114; `instanceName` tells whether the name is not NULL. The
results of the second `calloc` and of `strdup` are not checked. -/
def FMICreateInstance (env : Env) (s : Sys) (instanceName logMessage logFunctionCall : Bool) :
    Outcome (Option Inst × Sys) :=
  let (block, s) := calloc env s
  match block with
  | none => .ret (none, s)
  | some block =>
    let (buffer, s) := calloc env s
    if instanceName then
      let (name, s) := calloc env s
      .ret (some ⟨block, buffer, name, none, none, none, none, logMessage, logFunctionCall, .OK⟩, s)
    else .ub

/-- `FMILoadPlatformBinary`, src/FMI.c 116-157. -/
def FMILoadPlatformBinary (env : Env) (s : Sys) (i : Inst) : (Sys × Inst) × Status :=
  match env.dlopen s.opens with
  | none => (({ s with opens := s.opens + 1 }, { i with library := none }), .Error)
  | some exports =>
    (({ s with libraries := s.libraries.acquire.2, opens := s.opens + 1 },
      { i with library := some (s.libraries.acquire.1, exports) }), .OK)

/-- How a wrapper function logs a call: with a literal, with a text made in the buffer, or with a
text in the buffer whose format does not fit the arguments. src/FMI2.c 62-69, src/FMI3.c 54-90. -/
inductive Text
  | literal | buffer | mismatch
  deriving DecidableEq, Repr

/-- The logging at the end of a wrapper function, for instance src/FMI3.c 57-59, 67-71. If the
buffer is NULL, `FMIClearLogMessageBuffer` (src/FMI.c 190-192) writes to NULL. Simplification: the
buffer may be reallocated; it is still one block of memory, which keeps its number here. -/
def logCall (s : Sys) (i : Inst) (t : Text) : Outcome Unit :=
  if i.logFunctionCall then
    match t with
    | .literal => .ret ()
    | .mismatch => .ub
    | .buffer => match i.buffer with
      | none => .ub
      | some b => if s.memory.live b then .ret () else .ub
  else .ret ()

/-- The logging of an instantiation, which prints the name, src/FMI2.c 229-235, src/FMI3.c 269-288,
334-363, 405-430. -/
def logInstantiate (s : Sys) (i : Inst) : Outcome Unit :=
  if i.logFunctionCall && i.name.isNone then .ub else logCall s i .buffer

/-- The functions loaded by `FMI2Instantiate`, src/FMI2.c 155-217, in that order. -/
def symbols2 (t : IType) : List String :=
  ["GetTypesPlatform", "GetVersion", "SetDebugLogging", "Instantiate", "FreeInstance", "SetupExperiment",
   "EnterInitializationMode", "ExitInitializationMode", "Terminate", "Reset", "GetReal", "GetInteger",
   "GetBoolean", "GetString", "SetReal", "SetInteger", "SetBoolean", "SetString", "GetFMUstate",
   "SetFMUstate", "FreeFMUstate", "SerializedFMUstateSize", "SerializeFMUstate", "DeSerializeFMUstate",
   "GetDirectionalDerivative"] ++
  if t = .modelExchange then
    ["EnterEventMode", "NewDiscreteStates", "EnterContinuousTimeMode", "CompletedIntegratorStep", "SetTime",
     "SetContinuousStates", "GetDerivatives", "GetEventIndicators", "GetContinuousStates",
     "GetNominalsOfContinuousStates"]
  else
    ["SetRealInputDerivatives", "GetRealOutputDerivatives", "DoStep", "CancelStep", "GetStatus",
     "GetRealStatus", "GetIntegerStatus", "GetBooleanStatus", "GetStringStatus"]

/-- The functions loaded by `loadSymbols3`, src/FMI3.c 138-244, in that order. -/
def symbols3 : List String :=
  ["GetVersion", "SetDebugLogging", "InstantiateModelExchange", "InstantiateCoSimulation",
   "InstantiateScheduledExecution", "FreeInstance", "EnterInitializationMode", "ExitInitializationMode",
   "EnterEventMode", "Terminate", "Reset", "GetFloat32", "GetFloat64", "GetInt8", "GetUInt8", "GetInt16",
   "GetUInt16", "GetInt32", "GetUInt32", "GetInt64", "GetUInt64", "GetBoolean", "GetString", "GetBinary",
   "GetClock", "SetFloat32", "SetFloat64", "SetInt8", "SetUInt8", "SetInt16", "SetUInt16", "SetInt32",
   "SetUInt32", "SetInt64", "SetUInt64", "SetBoolean", "SetString", "SetBinary", "SetClock",
   "GetNumberOfVariableDependencies", "GetVariableDependencies", "GetFMUState", "SetFMUState",
   "FreeFMUState", "SerializedFMUStateSize", "SerializeFMUState", "DeserializeFMUState",
   "GetDirectionalDerivative", "GetAdjointDerivative", "EnterConfigurationMode", "ExitConfigurationMode",
   "GetIntervalDecimal", "GetIntervalFraction", "GetShiftDecimal", "GetShiftFraction",
   "SetIntervalDecimal", "SetIntervalFraction", "EvaluateDiscreteStates", "UpdateDiscreteStates",
   "EnterContinuousTimeMode", "CompletedIntegratorStep", "SetTime", "SetContinuousStates",
   "GetContinuousStateDerivatives", "GetEventIndicators", "GetContinuousStates",
   "GetNominalsOfContinuousStates", "GetNumberOfEventIndicators", "GetNumberOfContinuousStates",
   "EnterStepMode", "GetOutputDerivatives", "DoStep", "ActivateModelPartition"]

/-- The prefix of the names of the functions in the library, src/FMI2.c 54, src/FMI3.c 46. -/
def Version.pre : Version → String
  | .fmi2 => "fmi2"
  | .fmi3 => "fmi3"

/-- A sequence of `LOAD_SYMBOL`, src/FMI2.c 52-59, src/FMI3.c 44-51: it ends at the first function that
is missing, which is reported to `logMessage` without asking whether that is NULL. The result
is the functions that have been loaded. A `libraryHandle` that is NULL is not a handle of `dlopen`:
what `dlsym` then finds is not the FMU's and is taken as undefined behaviour. -/
def loadSymbols (v : Version) (s : Sys) (i : Inst) (names : List String) : Outcome (List String × Status) :=
  match i.library with
  | none => .ub
  | some (h, exports) =>
    if s.libraries.live h then
      let loaded := names.takeWhile fun f => exports (v.pre ++ f)
      if loaded.length = names.length then .ret (loaded, .OK)
      else if i.logMessage then .ret (loaded, .Fatal)
      else .ub
    else .ub

/-- The FMU creates an instance, or returns NULL.
`fmi2Instantiate` and `fmi3Instantiate*` of the FMU, called in src/FMI2.c 218-245 and src/FMI3.c 256-440. -/
def create (env : Env) (s : Sys) : Option Nat × Sys :=
  if env.instantiate s.instantiations then
    (some s.components.acquire.1,
      { s with components := s.components.acquire.2, instantiations := s.instantiations + 1 })
  else (none, { s with instantiations := s.instantiations + 1 })

/-- `FMI2Instantiate`, src/FMI2.c 136-245. -/
def FMI2Instantiate (env : Env) (s : Sys) (i : Inst) (t : IType) : Outcome ((Sys × Inst) × Status) :=
  let (block, s) := calloc env s
  match block with
  | none => .ret ((s, { i with table2 := none }), .Error)
  | some block =>
    loadSymbols .fmi2 s i (symbols2 t) >>- fun (loaded, status) =>
    let i := { i with table2 := some (block, loaded) }
    if status ≠ .OK then .ret ((s, i), status)
    else
      let (component, s) := create env s
      let i := { i with component := component }
      logInstantiate s i >>- fun _ =>
      .ret ((s, i), if component.isNone then .Error else .OK)

/-- `loadSymbols3`, src/FMI3.c 122-253. -/
def loadSymbols3 (env : Env) (s : Sys) (i : Inst) : Outcome ((Sys × Inst) × Status) :=
  let (block, s) := calloc env s
  match block with
  | none => .ret ((s, { i with table3 := none }), .Error)
  | some block =>
    loadSymbols .fmi3 s i symbols3 >>- fun (loaded, status) =>
    .ret ((s, { i with table3 := some (block, loaded) }), status)

/-- The call of `fmi3Instantiate*` and its logging, src/FMI3.c 267-292, 318-367, 393-434: a function
that is NULL, or a table that is NULL, is undefined behaviour; otherwise whether an instance was created. -/
def instantiate3 (env : Env) (s : Sys) (i : Inst) (f : String) : Outcome ((Sys × Inst) × Bool) :=
  match i.table3 with
  | none => .ub
  | some (_, loaded) =>
    if f ∈ loaded then
      let (component, s) := create env s
      let i := { i with component := component }
      logInstantiate s i >>- fun _ => .ret ((s, i), component.isSome)
    else .ub

/-- `FMI3InstantiateModelExchange`, src/FMI3.c 256-298: the status of `loadSymbols3` is not looked at
before the function is called, and returned at the end. -/
def FMI3InstantiateModelExchange (env : Env) (s : Sys) (i : Inst) : Outcome ((Sys × Inst) × Status) :=
  loadSymbols3 env s i >>- fun ((s, i), status) =>
  instantiate3 env s i "InstantiateModelExchange" >>- fun (x, created) =>
  .ret (x, if created then status else .Error)

/-- `FMI3InstantiateCoSimulation`, src/FMI3.c 300-373. -/
def FMI3InstantiateCoSimulation (env : Env) (s : Sys) (i : Inst) : Outcome ((Sys × Inst) × Status) :=
  loadSymbols3 env s i >>- fun ((s, i), status) =>
  if status ≠ .OK then .ret ((s, i), .Fatal)
  else instantiate3 env s i "InstantiateCoSimulation" >>- fun (x, created) =>
    .ret (x, if created then .OK else .Error)

/-- `FMI3InstantiateScheduledExecution`, src/FMI3.c 375-440. -/
def FMI3InstantiateScheduledExecution (env : Env) (s : Sys) (i : Inst) : Outcome ((Sys × Inst) × Status) :=
  loadSymbols3 env s i >>- fun ((s, i), status) =>
  if status ≠ .OK then .ret ((s, i), .Error)
  else instantiate3 env s i "InstantiateScheduledExecution" >>- fun (x, created) =>
    .ret (x, if created then .OK else .Error)

/-- `FMI2Instantiate` and `FMI3Instantiate*`. src/FMI2.c 136-245, src/FMI3.c 256-440. -/
def instantiate (env : Env) (s : Sys) (i : Inst) : Version → IType → Outcome ((Sys × Inst) × Status)
  | .fmi2, t => FMI2Instantiate env s i t
  | .fmi3, .modelExchange => FMI3InstantiateModelExchange env s i
  | .fmi3, .coSimulation => FMI3InstantiateCoSimulation env s i
  | .fmi3, .scheduledExecution => FMI3InstantiateScheduledExecution env s i

/-- The table of functions of a version. include/FMI.h 147-148. -/
def Inst.table (i : Inst) : Version → Option (Nat × List String)
  | .fmi2 => i.table2
  | .fmi3 => i.table3

/-- The function pointer `instance->fmiXFunctions->fmiXf` can be called: the table is not NULL and
has not been freed, the pointer has been loaded, and its library is still open. src/FMI2.c 64, src/FMI3.c 56, 67. -/
def callable (s : Sys) (i : Inst) (v : Version) (f : String) : Bool :=
  match i.table v, i.library with
  | some (b, loaded), some (h, _) => s.memory.live b && decide (f ∈ loaded) && s.libraries.live h
  | _, _ => false

/-- `fmi2FreeInstance` and `fmi3FreeInstance` of the FMU: NULL is ignored (src/cosimulation.c 113); an
instance must not be freed again. -/
def destroy (s : Sys) (component : Option Nat) : Outcome Sys :=
  match component with
  | none => .ret s
  | some c => s.components.release c >>- fun p => .ret { s with components := p }

/-- `FMI2FreeInstance`, src/FMI2.c 247-258, and `FMI3FreeInstance`, src/FMI3.c 442-457. Only the
latter sets `component` to NULL. -/
def FMIXFreeInstance (s : Sys) (i : Inst) (v : Version) : Outcome ((Sys × Inst) × Status) :=
  if callable s i v "FreeInstance" then
    destroy s i.component >>- fun s =>
    .ret ((s, match v with | .fmi2 => i | .fmi3 => { i with component := none }), .OK)
  else .ub

/-- How the wrapper of a function logs the call. Literals: the macro `CALL` (src/FMI2.c 62-69,
src/FMI3.c 54-62) and the functions that give versions (src/FMI2.c 102-118, src/FMI3.c 97-102). Formats
that do not fit: no arguments at all in `SetDebugLogging` (src/FMI2.c 126, src/FMI3.c 113),
a pointer for `%d` in `GetIntervalFraction` (src/FMI3.c 923) and for `%zu` in
`GetNumberOfEventIndicators` and `GetNumberOfContinuousStates` (src/FMI3.c 1130, 1135). -/
def text : Version → String → Text
  | .fmi2, f =>
    if f ∈ ["GetTypesPlatform", "GetVersion", "EnterInitializationMode", "ExitInitializationMode",
        "Terminate", "Reset", "EnterEventMode", "EnterContinuousTimeMode", "CancelStep"] then .literal
    else if f = "SetDebugLogging" then .mismatch
    else .buffer
  | .fmi3, f =>
    if f ∈ ["GetVersion", "ExitInitializationMode", "EnterEventMode", "Terminate", "Reset",
        "EnterConfigurationMode", "ExitConfigurationMode", "EvaluateDiscreteStates",
        "EnterContinuousTimeMode", "EnterStepMode"] then .literal
    else if f ∈ ["SetDebugLogging", "GetIntervalFraction", "GetNumberOfEventIndicators",
        "GetNumberOfContinuousStates"] then .mismatch
    else .buffer

/-- The functions of the FMU that are called without an instance and return a text, src/FMI2.c 108,
117, src/FMI3.c 101. -/
def inquiry (f : String) : Bool := f ∈ ["GetTypesPlatform", "GetVersion"]

/-- The wrapper functions that write the field `status`: those made with `CALL`, `CALL_ARGS` and
`CALL_ARRAY` of src/FMI3.c 54-90. The others (src/FMI3.c 97-120, 599-641, 739-781, 815-828,
988-1007, 1018-1034, 1041-1125, 1159-1179) and all of src/FMI2.c do not. -/
def recorded : Version → String → Bool
  | .fmi2, _ => false
  | .fmi3, f => !decide (f ∈ ["GetVersion", "SetDebugLogging", "GetBinary", "GetClock", "SetBinary", "SetClock",
      "SerializedFMUStateSize", "UpdateDiscreteStates", "CompletedIntegratorStep", "SetContinuousStates",
      "GetContinuousStateDerivatives", "GetEventIndicators", "GetContinuousStates",
      "GetNominalsOfContinuousStates", "DoStep"])

/-- The greater status, src/FMI3.c 60. -/
def worse (a b : Status) : Status := if b.rank < a.rank then a else b

/-- A wrapper function other than those that create and free instances, src/FMI2.c 62-133, 260-607,
src/FMI3.c 54-120, 459-1187: the function of the FMU is called with the instance, the call is logged, and
the status of the FMU is returned. The FMU must not be called with NULL or with an instance that it
has freed. Simplifications: functions that return a text count as OK; `FMI3ExitConfigurationMode`
is taken in a mode in which it calls the FMU; the arrays and pointers that are logged are valid. -/
def call (env : Env) (s : Sys) (i : Inst) (v : Version) (f : String) : Outcome ((Sys × Inst) × Status) :=
  if callable s i v f then
    if inquiry f then
      logCall s i (text v f) >>- fun _ => .ret ((s, i), .OK)
    else match i.component with
      | none => .ub
      | some c =>
        if s.components.live c then
          let status := env.status s.calls
          let s := { s with calls := s.calls + 1 }
          logCall s i (text v f) >>- fun _ =>
          .ret ((s, if recorded v f then { i with status := worse status i.status } else i), status)
        else .ub
  else .ub

/-- The library is closed if there is one, src/FMI.c 165-173. -/
def unload (s : Sys) (library : Option Nat) : Outcome Sys :=
  match library with
  | none => .ret s
  | some h => s.libraries.release h >>- fun p => .ret { s with libraries := p }

/-- `FMIFreeInstance`, src/FMI.c 159-184. -/
def FMIFreeInstance (s : Sys) (i : Inst) : Outcome Sys :=
  unload s (i.library.map Prod.fst) >>- fun s =>
  free s i.buffer >>- fun s =>
  free s i.name >>- fun s =>
  free s (i.table2.map Prod.fst) >>- fun s =>
  free s (i.table3.map Prod.fst) >>- fun s =>
  free s (some i.block)

/-- What the user does with an instance. The functions of src/FMI.c 92-184, src/FMI2.c 102-607 and src/FMI3.c 97-1187. -/
inductive Op
  | load
  | instantiate (v : Version) (t : IType)
  | call (v : Version) (f : String)
  | freeComponent (v : Version)
  deriving DecidableEq, Repr

/-- One operation. An instance that has been freed must not be used. The functions of src/FMI.c 92-184, src/FMI2.c 102-607 and src/FMI3.c 97-1187. -/
def step (env : Env) (s : Sys) (i : Inst) (op : Op) : Outcome ((Sys × Inst) × Status) :=
  if s.memory.live i.block then
    match op with
    | .load => .ret (FMILoadPlatformBinary env s i)
    | .instantiate v t => instantiate env s i v t
    | .call v f => call env s i v f
    | .freeComponent v => FMIXFreeInstance s i v
  else .ub

/-- `setUp`, examples/util.h 194-222, with the instance in the variable `S`. The log and output files
are left out. -/
def setUp (env : Env) (s : Sys) : Outcome ((Sys × Option Inst) × Status) :=
  FMICreateInstance env s true true true >>- fun (i, s) =>
  match i with
  | none => .ret ((s, none), .Error)
  | some i =>
    let ((s, i), status) := FMILoadPlatformBinary env s i
    .ret ((s, some i), status)

/-- The end of `tearDown`, examples/util.h 242-254. -/
def release (s : Sys) (i : Inst) (v : Version) (status : Status) : Outcome (Sys × Status) :=
  (if status.rank < Status.Fatal.rank then FMIXFreeInstance s i v >>- fun (x, _) => .ret x
   else .ret (s, i)) >>- fun (s, i) =>
  FMIFreeInstance s i >>- fun s => .ret (s, status)

/-- `tearDown`, examples/util.h 224-267. -/
def tearDown (env : Env) (s : Sys) (i : Option Inst) (v : Version) (status : Status) : Outcome (Sys × Status) :=
  match i with
  | none => .ret (s, status)
  | some i =>
    if status.rank < Status.Error.rank then
      call env s i v "Terminate" >>- fun ((s, i), st) => release s i v (worse st status)
    else release s i v status

/-- Calls one after the other, with the statuses they return. Any sequence of calls of src/FMI2.c 102-607 and src/FMI3.c 97-1187. -/
def callAll (env : Env) (v : Version) : Sys → Inst → List String → Outcome ((Sys × Inst) × List Status)
  | s, i, [] => .ret ((s, i), [])
  | s, i, f :: fs =>
    call env s i v f >>- fun ((s, i), status) =>
    callAll env v s i fs >>- fun (x, l) => .ret (x, status :: l)

/-- `CALL(f)` of the programs, examples/util.h 45: calls until the first status that is not OK. -/
def calls (env : Env) (v : Version) : Sys → Inst → List String → Outcome ((Sys × Inst) × Status)
  | s, i, [] => .ret ((s, i), .OK)
  | s, i, f :: fs =>
    call env s i v f >>- fun ((s, i), status) =>
    if status = .OK then calls env v s i fs else .ret ((s, i), status)

/-- The shape of the example programs, for instance examples/simulate_fmi3_cs.c: `setUp`, instantiation,
calls, and `tearDown` at the end or at the first status that is not OK. -/
def program (env : Env) (s : Sys) (v : Version) (t : IType) (fs : List String) : Outcome (Sys × Status) :=
  setUp env s >>- fun ((s, i), status) =>
  match i with
  | none => tearDown env s none v status
  | some i =>
    if status = .OK then
      instantiate env s i v t >>- fun ((s, i), status) =>
      if status = .OK then
        calls env v s i fs >>- fun ((s, i), status) => tearDown env s (some i) v status
      else tearDown env s (some i) v status
    else tearDown env s (some i) v status

end Verif.Importer.Lifecycle
