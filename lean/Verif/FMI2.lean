import Verif.Core

/-!
# The FMI 2.0 API: `src/fmi2Functions.c`

Each function takes a valid component (the NULL handle is treated in `History2`). Output
arguments are returned; an output pointer `Option α` is `none` for NULL and otherwise holds
the value of its target.
-/

namespace Verif
namespace FMI2

/-- An or-combination of states, e.g. src/fmi2Functions.c 87-166. -/
def mask (l : List Mode) : Nat := l.foldl (fun a s => a ||| s.bit2) 0

/-- The test `instance->state & statesExpected`, src/fmi2Functions.c 200. -/
def allowed {F : Type} (ctx : Ctx F) (mask : Nat) : Bool := ctx.state.bit2 &&& mask != 0

/-- src/fmi2Functions.c 92-95 -/
def MASK_SetDebugLogging := mask [.instantiated, .initializationMode, .eventMode,
  .continuousTimeMode, .stepComplete, .stepInProgress, .stepFailed, .stepCanceled, .terminated]
/-- src/fmi2Functions.c 97-100; also used for Reset (106) and the FMU state functions (122-127) -/
def MASK_FreeInstance := mask [.instantiated, .initializationMode, .eventMode,
  .continuousTimeMode, .stepComplete, .stepFailed, .stepCanceled, .terminated]
/-- src/fmi2Functions.c 101 -/
def MASK_SetupExperiment := mask [.instantiated]
/-- src/fmi2Functions.c 102 -/
def MASK_EnterInitializationMode := mask [.instantiated]
/-- src/fmi2Functions.c 103 -/
def MASK_ExitInitializationMode := mask [.initializationMode]
/-- src/fmi2Functions.c 104-105 -/
def MASK_Terminate := mask [.eventMode, .continuousTimeMode, .stepComplete, .stepFailed]
/-- src/fmi2Functions.c 107-110; also for Integer, Boolean, String (111-113) -/
def MASK_GetReal := mask [.initializationMode, .eventMode, .continuousTimeMode, .stepComplete,
  .stepFailed, .stepCanceled, .terminated]
/-- src/fmi2Functions.c 114-116 -/
def MASK_SetReal := mask [.instantiated, .initializationMode, .eventMode, .continuousTimeMode,
  .stepComplete]
/-- src/fmi2Functions.c 117-119; also for Boolean, String (120-121) -/
def MASK_SetInteger := mask [.instantiated, .initializationMode, .eventMode, .stepComplete]
/-- src/fmi2Functions.c 128-131 -/
def MASK_GetDirectionalDerivative := mask [.initializationMode, .eventMode, .continuousTimeMode,
  .stepComplete, .stepFailed, .stepCanceled, .terminated]
/-- src/fmi2Functions.c 136 -/
def MASK_EnterEventMode := mask [.eventMode, .continuousTimeMode]
/-- src/fmi2Functions.c 137 -/
def MASK_NewDiscreteStates := mask [.eventMode]
/-- src/fmi2Functions.c 138 -/
def MASK_EnterContinuousTimeMode := mask [.eventMode]
/-- src/fmi2Functions.c 139 -/
def MASK_CompletedIntegratorStep := mask [.continuousTimeMode]
/-- src/fmi2Functions.c 140 -/
def MASK_SetTime := mask [.eventMode, .continuousTimeMode]
/-- src/fmi2Functions.c 141 -/
def MASK_SetContinuousStates := mask [.continuousTimeMode]
/-- src/fmi2Functions.c 142-144; also for GetContinuousStates (145) -/
def MASK_GetEventIndicators := mask [.initializationMode, .eventMode, .continuousTimeMode,
  .terminated]
/-- src/fmi2Functions.c 146-147 -/
def MASK_GetDerivatives := mask [.eventMode, .continuousTimeMode, .terminated]
/-- src/fmi2Functions.c 148-150 -/
def MASK_GetNominals := mask [.instantiated, .eventMode, .continuousTimeMode, .terminated]
/-- src/fmi2Functions.c 155-156 -/
def MASK_SetRealInputDerivatives := mask [.instantiated, .initializationMode, .stepComplete]
/-- src/fmi2Functions.c 157-158 -/
def MASK_GetRealOutputDerivatives := mask [.stepComplete, .stepFailed, .stepCanceled, .terminated]
/-- src/fmi2Functions.c 159 -/
def MASK_DoStep := mask [.stepComplete]
/-- src/fmi2Functions.c 160 -/
def MASK_CancelStep := mask [.stepInProgress]
/-- src/fmi2Functions.c 161-162; also for the typed variants (163-166) -/
def MASK_GetStatus := mask [.stepComplete, .stepInProgress, .stepFailed, .terminated]

section
variable {F D : Type}

/-- `BEGIN_FUNCTION(F)`, src/fmi2Functions.c 168-172. -/
def begin {β : Type} (mask : Nat) (name : String) (c : Comp F D) (stop : β)
    (k : Comp F D → Res F D β) : Res F D β :=
  beginFunction (allowed c.ctx mask) name c stop k

/-- `logError(...); CALL(Error);`. For example src/fmi2Functions.c 506-511; the macro `CALL` is in lines 178-189. -/
def fail {β : Type} (c : Comp F D) (msg : String) (stop : β) : Res F D β :=
  .ret ((c.logError msg).setState .terminated, .Error, stop)

/-- `GET_VARIABLES(T)`, src/fmi2Functions.c 34-47. -/
def getVariables (m : Model F D) (t : VType) (vr : Ptr Nat) (nvr : Nat) (value : Ptr (t.Val F))
    (c : Comp F D) : Res F D (Ptr (t.Val F)) :=
  if nvr = 0 then .ret (c, .OK, value) else
  assertNonNull vr c value <|
  assertNonNull value c value <|
  refresh m .OK c value fun c st =>
  getLoop m t vr nvr nvr 0 c st value 0 >>- fun (c, st, (value, _)) => .ret (c, st, value)

/-- `SET_VARIABLES(T)`, src/fmi2Functions.c 49-59. The loop leaves by `goto TERMINATE` on
`Discard`, `Error` and `Fatal`, so the dirty flag is then not set. -/
def setVariables (m : Model F D) (t : VType) (vr : Ptr Nat) (nvr : Nat) (value : Ptr (t.Val F))
    (c : Comp F D) : Res F D Unit :=
  if nvr = 0 then .ret (c, .OK, ()) else
  assertNonNull vr c () <|
  assertNonNull value c () <|
  setLoop m t vr value nvr nvr 0 c .OK 0 >>- fun (c, st, _) =>
  if st = .Discard ∨ st = .Error ∨ st = .Fatal then .ret (c, st, ())
  else .ret (c.setDirty true, st, ())

/-- `GET_BOOLEAN_VARIABLES`, src/fmi2Functions.c 61-69. `fmi2Boolean` is `int`. The local
variable `v` is uninitialised in C and `false` here; it is only read after a successful
`getBoolean`, which writes it. -/
def getBooleanLoop (m : Model F D) (vr : Ptr Nat) (nvr : Nat) :
    (n i : Nat) → Comp F D → Status → Ptr Int → Res F D (Ptr Int)
  | 0, _, c, st, value => .ret (c, st, value)
  | n + 1, i, c, st, value =>
    vr.read i >>- fun r =>
    call st (c.lift (m.get .boolean c.ctx c.mv r (some [false]) nvr 0)) (fun _ => value)
      fun c st (v, _) =>
      Ptr.read v 0 >>- fun (v : Bool) =>
      value.write i (if v then 1 else 0) >>- fun value => getBooleanLoop m vr nvr n (i + 1) c st value

/-- `SET_BOOLEAN_VARIABLES`, src/fmi2Functions.c 71-78. -/
def setBooleanLoop (m : Model F D) (vr : Ptr Nat) (nvr : Nat) (value : Ptr Int) :
    (n i : Nat) → Comp F D → Status → Res F D Unit
  | 0, _, c, st => .ret (c, st, ())
  | n + 1, i, c, st =>
    value.read i >>- fun v =>
    vr.read i >>- fun r =>
    call st (c.lift (m.set .boolean c.ctx c.mv r (some [decide (v ≠ 0)]) nvr 0)) (fun _ => ())
      fun c st _ => setBooleanLoop m vr nvr value n (i + 1) c st

/-- `fmi2Instantiate`, src/fmi2Functions.c 213-232. `functions` is NULL or tells whether
`functions->logger` is non-NULL. `fmi2Type` and `InterfaceType` agree on 0 and 1. -/
def instantiate [Arith F] (m : Model F D) (name : Option String) (typ : IType)
    (guid : Option String) (resource : Ptr UInt8) (functions : Option Bool) (loggingOn mem : Bool) :
    Option (Comp F D) × List (Ev F) :=
  match functions with
  | none => (none, [])
  | some false => (none, [])
  | some true => createModelInstance m false true false name guid resource loggingOn mem typ

/-- `fmi2SetupExperiment`, src/fmi2Functions.c 234-248. -/
def setupExperiment [HasInf F] (c : Comp F D) (startTime : F) (stopTimeDefined : Bool)
    (stopTime : F) : Res F D Unit :=
  begin MASK_SetupExperiment "fmi2SetupExperiment" c () fun c =>
  .ret ({ c.setTime startTime with
    startTime := startTime
    stopTime := if stopTimeDefined then stopTime else HasInf.inf
    nextCommunicationPoint := startTime }, .OK, ())

/-- `fmi2EnterInitializationMode`, src/fmi2Functions.c 250-256. -/
def enterInitializationMode (c : Comp F D) : Res F D Unit :=
  begin MASK_EnterInitializationMode "fmi2EnterInitializationMode" c () fun c =>
  .ret (c.setState .initializationMode, .OK, ())

/-- `fmi2ExitInitializationMode`, src/fmi2Functions.c 258-273. -/
def exitInitializationMode (m : Model F D) (c : Comp F D) : Res F D Unit :=
  begin MASK_ExitInitializationMode "fmi2ExitInitializationMode" c () fun c =>
  refresh m .OK c () fun c st =>
  let c := c.setState (if c.ctx.typ = .modelExchange then .eventMode else .stepComplete)
  call st (configurate m c) id fun c st _ => .ret (c, st, ())

/-- `fmi2Terminate`, src/fmi2Functions.c 275-281. -/
def terminate (c : Comp F D) : Res F D Unit :=
  begin MASK_Terminate "fmi2Terminate" c () fun c => .ret (c.setState .terminated, .OK, ())

/-- `fmi2Reset`, src/fmi2Functions.c 283-289. -/
def reset [Arith F] (m : Model F D) (c : Comp F D) : Res F D Unit :=
  begin MASK_FreeInstance "fmi2Reset" c () fun c => callLast (Verif.reset m c) id

/-- `fmi2SetDebugLogging`, src/fmi2Functions.c 312-318. -/
def setDebugLogging (c : Comp F D) (on : Bool) (n : Nat) (cats : Ptr (Option String)) :
    Res F D Unit :=
  begin MASK_SetDebugLogging "fmi2SetDebugLogging" c () fun c =>
  callLast (Verif.setDebugLogging c on n cats) id

/-- `fmi2GetReal`, src/fmi2Functions.c 320-324. -/
def getReal (m : Model F D) (c : Comp F D) (vr : Ptr Nat) (nvr : Nat) (value : Ptr F) :
    Res F D (Ptr F) :=
  begin MASK_GetReal "fmi2GetReal" c value fun c => getVariables m .float64 vr nvr value c

/-- `fmi2GetInteger`, src/fmi2Functions.c 326-330. -/
def getInteger (m : Model F D) (c : Comp F D) (vr : Ptr Nat) (nvr : Nat) (value : Ptr Int) :
    Res F D (Ptr Int) :=
  begin MASK_GetReal "fmi2GetInteger" c value fun c => getVariables m .int32 vr nvr value c

/-- `fmi2GetBoolean`, src/fmi2Functions.c 332-336. -/
def getBoolean (m : Model F D) (c : Comp F D) (vr : Ptr Nat) (nvr : Nat) (value : Ptr Int) :
    Res F D (Ptr Int) :=
  begin MASK_GetReal "fmi2GetBoolean" c value fun c => getBooleanLoop m vr nvr nvr 0 c .OK value

/-- `fmi2GetString`, src/fmi2Functions.c 338-342. -/
def getString (m : Model F D) (c : Comp F D) (vr : Ptr Nat) (nvr : Nat)
    (value : Ptr (Ptr UInt8)) : Res F D (Ptr (Ptr UInt8)) :=
  begin MASK_GetReal "fmi2GetString" c value fun c => getVariables m .string vr nvr value c

/-- `fmi2SetReal`, src/fmi2Functions.c 344-348. -/
def setReal (m : Model F D) (c : Comp F D) (vr : Ptr Nat) (nvr : Nat) (value : Ptr F) :
    Res F D Unit :=
  begin MASK_SetReal "fmi2SetReal" c () fun c => setVariables m .float64 vr nvr value c

/-- `fmi2SetInteger`, src/fmi2Functions.c 350-354. -/
def setInteger (m : Model F D) (c : Comp F D) (vr : Ptr Nat) (nvr : Nat) (value : Ptr Int) :
    Res F D Unit :=
  begin MASK_SetInteger "fmi2SetInteger" c () fun c => setVariables m .int32 vr nvr value c

/-- `fmi2SetBoolean`, src/fmi2Functions.c 356-360. -/
def setBoolean (m : Model F D) (c : Comp F D) (vr : Ptr Nat) (nvr : Nat) (value : Ptr Int) :
    Res F D Unit :=
  begin MASK_SetInteger "fmi2SetBoolean" c () fun c => setBooleanLoop m vr nvr value nvr 0 c .OK

/-- `fmi2SetString`, src/fmi2Functions.c 362-366. -/
def setString (m : Model F D) (c : Comp F D) (vr : Ptr Nat) (nvr : Nat)
    (value : Ptr (Ptr UInt8)) : Res F D Unit :=
  begin MASK_SetInteger "fmi2SetString" c () fun c => setVariables m .string vr nvr value c

/-- `fmi2GetFMUstate`, src/fmi2Functions.c 368-372, with `getFMUState`,
src/cosimulation.c 591-598. `slot` is `*FMUstate`: NULL or an earlier saved state, which is
overwritten. Simplification: the allocation succeeds. -/
def getFMUstate (c : Comp F D) (slot : Option (Comp F D)) : Res F D (Option (Comp F D)) :=
  begin MASK_FreeInstance "fmi2GetFMUstate" c slot fun c => .ret (c, .OK, some c)

/-- `fmi2SetFMUstate`, src/fmi2Functions.c 374-378; the status of `setFMUState`
(src/cosimulation.c 600-662) is ignored. -/
def setFMUstate (m : Model F D) (c : Comp F D) (s : Option (Comp F D)) : Res F D Unit :=
  begin MASK_FreeInstance "fmi2SetFMUstate" c () fun c =>
  match s with
  | none => .ret (c.logError "Argument must not be NULL", .OK, ())
  | some s => .ret (setFMUState m c s, .OK, ())

/-- `fmi2FreeFMUstate`, src/fmi2Functions.c 380-385. -/
def freeFMUstate (c : Comp F D) (slot : Option (Comp F D)) : Res F D (Option (Comp F D)) :=
  begin MASK_FreeInstance "fmi2FreeFMUstate" c slot fun c => .ret (c, .OK, none)

/-- `fmi2SerializedFMUstateSize`, src/fmi2Functions.c 387-393. -/
def serializedFMUstateSize (m : Model F D) (c : Comp F D) (size : Option Nat) :
    Res F D (Option Nat) :=
  begin MASK_FreeInstance "fmi2SerializedFMUstateSize" c size fun c =>
  match size with
  | none => .ub
  | some _ => .ret (c, .OK, some m.sizeOf)

end

end FMI2

/-- A byte buffer that may hold the bytes of a saved state: its capacity, and the state whose
image it holds. Simplification: the bytes themselves are not modelled.
The arguments `serializedState` and `size` of src/fmi2Functions.c 395, 411 and src/fmi3Functions.c 796, 815. -/
structure Buffer (F D : Type) where
  capacity : Nat
  image : Option (Comp F D)
  deriving DecidableEq, Repr

/-- `nullPointer` and `invalidNumber`, src/cosimulation.c 192-201, 224-233: the effect when
the argument is invalid. -/
def Comp.invalidArg {F D : Type} (c : Comp F D) (msg : String) : Comp F D :=
  (c.setState .terminated).logError msg

/-- `memcpy(serializedState, FMUstate, sizeof(ModelInstance))`, src/fmi2Functions.c 406,
src/fmi3Functions.c 810: undefined for a NULL or too small buffer. -/
def Buffer.store {F D : Type} (m : Model F D) (b : Option (Buffer F D)) (s : Comp F D) :
    Outcome (Option (Buffer F D)) :=
  match b with
  | none => .ub
  | some b => if b.capacity < m.sizeOf then .ub else .ret (some { b with image := some s })

/-- `memcpy(*FMUstate, serializedState, sizeof(ModelInstance))`, src/fmi2Functions.c 422,
src/fmi3Functions.c 833: undefined for a NULL or too small buffer; also treated as undefined
if the buffer holds no image of a state. -/
def Buffer.load {F D : Type} (m : Model F D) (b : Option (Buffer F D)) : Outcome (Comp F D) :=
  match b with
  | none => .ub
  | some b => if b.capacity < m.sizeOf then .ub else
    match b.image with
    | none => .ub
    | some s => .ret s

/-- `fmi2EventInfo` (and the event-info outputs of `fmi3UpdateDiscreteStates`):
include/model.h 126-131 names the fields. -/
structure EventInfo (F : Type) where
  newDiscreteStatesNeeded : Bool
  terminateSimulation : Bool
  nominalsChanged : Bool
  valuesChanged : Bool
  nextEventTimeDefined : Bool
  nextEventTime : F
  deriving DecidableEq, Repr

/-- The event info of an instance, src/fmi2Functions.c 652-657. -/
def MV.eventInfo {F D : Type} (mv : MV F D) : EventInfo F :=
  ⟨mv.newDiscreteStatesNeeded, mv.terminateSimulation, mv.nominalsChanged, mv.valuesChanged,
    mv.nextEventTimeDefined, mv.nextEventTime⟩

namespace FMI2
section
variable {F D : Type}

/-- `fmi2SerializeFMUstate`, src/fmi2Functions.c 395-409. -/
def serializeFMUstate (m : Model F D) (c : Comp F D) (s : Option (Comp F D))
    (buf : Option (Buffer F D)) (size : Nat) : Res F D (Option (Buffer F D)) :=
  begin MASK_FreeInstance "fmi2SerializeFMUstate" c buf fun c =>
  match s with
  | none => .ret (c.invalidArg "%s: Invalid argument %s = NULL.", .Error, buf)
  | some s =>
    if size ≠ m.sizeOf then
      .ret (c.invalidArg "%s: Invalid argument %s = %d. Expected %d.", .Error, buf)
    else Buffer.store m buf s >>- fun buf => .ret (c, .OK, buf)

/-- `fmi2DeSerializeFMUstate`, src/fmi2Functions.c 411-425. Simplification: the allocation
succeeds. -/
def deSerializeFMUstate (m : Model F D) (c : Comp F D) (buf : Option (Buffer F D)) (size : Nat)
    (slot : Option (Comp F D)) : Res F D (Option (Comp F D)) :=
  begin MASK_FreeInstance "fmi2DeSerializeFMUstate" c slot fun c =>
  if size ≠ m.sizeOf then
    .ret (c.invalidArg "%s: Invalid argument %s = %d. Expected %d.", .Error, slot)
  else Buffer.load m buf >>- fun s => .ret (c, .OK, some s)

/-- `fmi2GetDirectionalDerivative`, src/fmi2Functions.c 427-446. The arrays are assumed not to
overlap. -/
def getDirectionalDerivative [Arith F] (m : Model F D) (c : Comp F D) (unknowns : Ptr Nat)
    (nUnknown : Nat) (knowns : Ptr Nat) (nKnown : Nat) (dvKnown dvUnknown : Ptr F) :
    Res F D (Ptr F) :=
  begin MASK_GetDirectionalDerivative "fmi2GetDirectionalDerivative" c dvUnknown fun c =>
  derivOuter m (fun i j => unknowns.read i >>- fun u => knowns.read j >>- fun k => .ret (u, k))
    dvKnown nKnown nUnknown 0 c .OK dvUnknown

/-- `fmi2SetRealInputDerivatives`, src/fmi2Functions.c 452-466. -/
def setRealInputDerivatives (c : Comp F D) : Res F D Unit :=
  begin MASK_SetRealInputDerivatives "fmi2SetRealInputDerivatives" c () fun c =>
  fail c "fmi2SetRealInputDerivatives: ignoring function call." ()

/-- `fmi2GetRealOutputDerivatives`, src/fmi2Functions.c 468-488. -/
def getRealOutputDerivatives (m : Model F D) (c : Comp F D) (vr : Ptr Nat) (nvr : Nat)
    (order : Ptr Int) (value : Ptr F) : Res F D (Ptr F) :=
  begin MASK_GetRealOutputDerivatives "fmi2GetRealOutputDerivatives" c value fun c =>
  match m.getOutputDerivative with
  | some f => outputDerivLoop f vr order nvr 0 c .OK value
  | none => fail c "fmi2GetRealOutputDerivatives: ignoring function call." value

/-- `fmi2CancelStep`, src/fmi2Functions.c 490-498. -/
def cancelStep (c : Comp F D) : Res F D Unit :=
  begin MASK_CancelStep "fmi2CancelStep" c () fun c =>
  fail c "fmi2CancelStep: Can be called when fmi2DoStep returned fmi2Pending." ()

/-- Call the event handler if the model defines one and an event was detected,
src/fmi2Functions.c 537-541. -/
def handleEvents {β : Type} (m : Model F D) (c : Comp F D) (st : Status)
    (ev : Option (Bool × Bool)) (stop : β) (k : Comp F D → Status → Res F D β) : Res F D β :=
  match m.eventUpdate with
  | none => k c st
  | some eu =>
    match ev with
    | none => .ub
    | some (stateEvent, timeEvent) =>
      if stateEvent || timeEvent then
        call st (c.lift (eu c.ctx c.mv)) (fun _ => stop) fun c st _ => k c st
      else k c st

/-- The loop of `fmi2DoStep`, src/fmi2Functions.c 525-548, and the update of the communication
point, 550. `hang` if `fuel` iterations do not suffice. -/
def doStepLoop [Arith F] (m : Model F D) (next : F) : (fuel : Nat) → Comp F D → Status → Res F D Unit
  | 0, _, _ => .hang
  | fuel + 1, c, st =>
    let nextSolverStepTime := c.ctx.time +. m.h
    if next <. nextSolverStepTime && !isClose nextSolverStepTime next then
      .ret ({ c with nextCommunicationPoint := next }, st, ())
    else
      call st (doFixedStep m c) (fun _ => ()) fun c st ev =>
      handleEvents m c st ev () fun c st =>
      if c.mv.terminateSimulation then .ret (c, .Discard, ())
      else doStepLoop m next fuel c st

/-- `fmi2DoStep`, src/fmi2Functions.c 500-553. -/
def doStep [Arith F] (m : Model F D) (fuel : Nat) (c : Comp F D) (ccp step : F) : Res F D Unit :=
  begin MASK_DoStep "fmi2DoStep" c () fun c =>
  if !isClose ccp c.nextCommunicationPoint then
    fail c "Expected currentCommunicationPoint = %.16g but was %.16g." ()
  else if step <=. Arith.lit 0 then fail c "Communication step size must be > 0 but was %g." ()
  else
    let next := ccp +. step
    if c.stopTime <. next && !isClose next c.stopTime then
      fail c "At communication point %.16g a step size of %.16g was requested but stop time is %.16g." ()
    else doStepLoop m next fuel c .OK

end

/-- `fmi2StatusKind`; `other` stands for any other `int`. include/fmi2FunctionTypes.h 112-117. -/
inductive StatusKind
  | doStepStatus | pendingStatus | lastSuccessfulTime | terminated | other
  deriving DecidableEq, Repr

section
variable {F D : Type}

/-- `getStatus`, src/fmi2Functions.c 556-578. -/
def getStatusAux (c : Comp F D) (s : StatusKind) : Res F D Unit :=
  match s with
  | .doStepStatus => .ret (c.logError
      "%s: Can be called with fmi2DoStepStatus when fmi2DoStep returned fmi2Pending.", .Discard, ())
  | .pendingStatus => .ret (c.logError
      "%s: Can be called with fmi2PendingStatus when fmi2DoStep returned fmi2Pending.", .Discard, ())
  | .lastSuccessfulTime => .ret (c.logError
      "%s: Can be called with fmi2LastSuccessfulTime when fmi2DoStep returned fmi2Discard.",
      .Discard, ())
  | .terminated => .ret (c.logError
      "%s: Can be called with fmi2Terminated when fmi2DoStep returned fmi2Discard.", .Discard, ())
  | .other => .ret (c, .Discard, ())

/-- `fmi2GetStatus`, src/fmi2Functions.c 580-585. -/
def getStatus (c : Comp F D) (s : StatusKind) : Res F D Unit :=
  begin MASK_GetStatus "fmi2GetStatus" c () fun c => callLast (getStatusAux c s) id

/-- `fmi2GetRealStatus`, src/fmi2Functions.c 587-598. -/
def getRealStatus (c : Comp F D) (s : StatusKind) (value : Option F) : Res F D (Option F) :=
  begin MASK_GetStatus "fmi2GetRealStatus" c value fun c =>
  if s = .lastSuccessfulTime then
    match value with
    | none => .ub
    | some _ => .ret (c, .OK, some c.ctx.time)
  else callLast (getStatusAux c s) fun _ => value

/-- `fmi2GetIntegerStatus`, src/fmi2Functions.c 600-608. -/
def getIntegerStatus (c : Comp F D) (s : StatusKind) : Res F D Unit :=
  begin MASK_GetStatus "fmi2GetIntegerStatus" c () fun c => callLast (getStatusAux c s) id

/-- `fmi2GetBooleanStatus`, src/fmi2Functions.c 610-621. -/
def getBooleanStatus (c : Comp F D) (s : StatusKind) (value : Option Bool) :
    Res F D (Option Bool) :=
  begin MASK_GetStatus "fmi2GetBooleanStatus" c value fun c =>
  if s = .terminated then
    match value with
    | none => .ub
    | some _ => .ret (c, .OK, some c.mv.terminateSimulation)
  else callLast (getStatusAux c s) fun _ => value

/-- `fmi2GetStringStatus`, src/fmi2Functions.c 623-631. -/
def getStringStatus (c : Comp F D) (s : StatusKind) : Res F D Unit :=
  begin MASK_GetStatus "fmi2GetStringStatus" c () fun c => callLast (getStatusAux c s) id

/-- `fmi2EnterEventMode`, src/fmi2Functions.c 637-643. -/
def enterEventMode (c : Comp F D) : Res F D Unit :=
  begin MASK_EnterEventMode "fmi2EnterEventMode" c () fun c => .ret (c.setState .eventMode, .OK, ())

/-- `fmi2NewDiscreteStates`, src/fmi2Functions.c 645-660. -/
def newDiscreteStates (m : Model F D) (c : Comp F D) (info : Option (EventInfo F)) :
    Res F D (Option (EventInfo F)) :=
  begin MASK_NewDiscreteStates "fmi2NewDiscreteStates" c info fun c =>
  let k (c : Comp F D) (st : Status) : Res F D (Option (EventInfo F)) :=
    match info with
    | none => .ub
    | some _ => .ret (c, st, some c.mv.eventInfo)
  match m.eventUpdate with
  | none => k c .OK
  | some eu => call .OK (c.lift (eu c.ctx c.mv)) (fun _ => info) fun c st _ => k c st

/-- `fmi2EnterContinuousTimeMode`, src/fmi2Functions.c 662-668. -/
def enterContinuousTimeMode (c : Comp F D) : Res F D Unit :=
  begin MASK_EnterContinuousTimeMode "fmi2EnterContinuousTimeMode" c () fun c =>
  .ret (c.setState .continuousTimeMode, .OK, ())

/-- `fmi2CompletedIntegratorStep`, src/fmi2Functions.c 670-686. -/
def completedIntegratorStep (c : Comp F D) (enterEventMode terminateSimulation : Option Bool) :
    Res F D (Option Bool × Option Bool) :=
  begin MASK_CompletedIntegratorStep "fmi2CompletedIntegratorStep" c
    (enterEventMode, terminateSimulation) fun c =>
  if enterEventMode.isNone || terminateSimulation.isNone then
    .ret (c.invalidArg "%s: Invalid argument %s = NULL.", .Error,
      (enterEventMode, terminateSimulation))
  else .ret (c, .OK, (some false, some false))

/-- `fmi2SetTime`, src/fmi2Functions.c 689-693. -/
def setTime (c : Comp F D) (t : F) : Res F D Unit :=
  begin MASK_SetTime "fmi2SetTime" c () fun c => .ret (c.setTime t, .OK, ())

/-- `fmi2SetContinuousStates`, src/fmi2Functions.c 695-699. -/
def setContinuousStates (m : Model F D) (c : Comp F D) (x : Ptr F) (nx : Nat) : Res F D Unit :=
  begin MASK_SetContinuousStates "fmi2SetContinuousStates" c () fun c =>
  callLast (c.lift (m.setContinuousStates c.ctx c.mv x nx)) fun _ => ()

/-- `fmi2GetDerivatives`, src/fmi2Functions.c 702-706. -/
def getDerivatives (m : Model F D) (c : Comp F D) (dx : Ptr F) (nx : Nat) : Res F D (Ptr F) :=
  begin MASK_GetDerivatives "fmi2GetDerivatives" c dx fun c =>
  callLast (c.lift (m.getDerivatives c.ctx c.mv dx nx)) id

/-- `fmi2GetEventIndicators`, src/fmi2Functions.c 708-712. -/
def getEventIndicators (m : Model F D) (c : Comp F D) (z : Ptr F) (nz : Nat) : Res F D (Ptr F) :=
  begin MASK_GetEventIndicators "fmi2GetEventIndicators" c z fun c =>
  callLast (c.lift (m.getEventIndicators c.ctx c.mv z nz)) id

/-- `fmi2GetContinuousStates`, src/fmi2Functions.c 714-718. -/
def getContinuousStates (m : Model F D) (c : Comp F D) (x : Ptr F) (nx : Nat) : Res F D (Ptr F) :=
  begin MASK_GetEventIndicators "fmi2GetContinuousStates" c x fun c =>
  callLast (c.lift (m.getContinuousStates c.ctx c.mv x nx)) id

/-- `fmi2GetNominalsOfContinuousStates`, src/fmi2Functions.c 720-724. -/
def getNominals (m : Model F D) (c : Comp F D) (x : Ptr F) (nx : Nat) : Res F D (Ptr F) :=
  begin MASK_GetNominals "fmi2GetNominalsOfContinuousStates" c x fun c =>
  callLast (c.lift (m.getNominals c.ctx c.mv x nx)) id

end
end FMI2
end Verif
