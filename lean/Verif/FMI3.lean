import Verif.FMI2

/-!
# The FMI 3.0 API: `src/fmi3Functions.c`

Same conventions as `Verif.FMI2`. The binary get/set functions take two parallel arrays in C
(`valueSizes`, `values`); the model takes one array of pairs, so the two are NULL together and
have the same length.
-/

namespace Verif
namespace FMI3

/-- An or-combination of states, e.g. src/fmi3Functions.c 107-200. -/
def mask (l : List Mode) : Nat := l.foldl (fun a s => a ||| s.bit3) 0

/-- `MASK_AnyState`, src/fmi3Functions.c 94: `~0`, all 32 bits of an `int`. -/
def MASK_AnyState : Nat := 2 ^ 32 - 1

/-- The test `instance->state & statesExpected`, src/fmi3Functions.c 229. -/
def allowed {F : Type} (ctx : Ctx F) (mask : Nat) : Bool := ctx.state.bit3 &&& mask != 0

/-- src/fmi3Functions.c 107 -/
def MASK_EnterInitializationMode := mask [.instantiated]
/-- src/fmi3Functions.c 108 -/
def MASK_ExitInitializationMode := mask [.initializationMode]
/-- src/fmi3Functions.c 109 -/
def MASK_EnterEventMode := mask [.continuousTimeMode, .stepMode]
/-- src/fmi3Functions.c 110 -/
def MASK_Terminate := mask [.continuousTimeMode, .stepMode, .stepDiscarded, .eventMode,
  .clockActivationMode, .reconfigurationMode]
/-- src/fmi3Functions.c 116-128, all Get functions except GetClock -/
def MASK_Get := mask [.instantiated, .initializationMode, .configurationMode,
  .reconfigurationMode, .eventMode, .continuousTimeMode, .stepMode, .clockActivationMode,
  .intermediateUpdateMode, .terminated]
/-- src/fmi3Functions.c 131-132, SetFloat32 and SetFloat64 -/
def MASK_SetFloat := mask [.instantiated, .initializationMode, .configurationMode,
  .reconfigurationMode, .eventMode, .continuousTimeMode, .stepMode, .clockActivationMode,
  .intermediateUpdateMode, .terminated]
/-- src/fmi3Functions.c 133-143, the other Set functions except SetClock -/
def MASK_SetInt := mask [.instantiated, .configurationMode, .reconfigurationMode,
  .initializationMode, .eventMode, .stepMode, .clockActivationMode, .terminated]
/-- src/fmi3Functions.c 159-160 -/
def MASK_GetDirectionalDerivative := mask [.initializationMode, .stepMode, .eventMode,
  .continuousTimeMode, .terminated]
/-- src/fmi3Functions.c 163 -/
def MASK_EnterConfigurationMode := mask [.instantiated, .stepMode, .eventMode, .clockActivationMode]
/-- src/fmi3Functions.c 164 -/
def MASK_ExitConfigurationMode := mask [.configurationMode, .reconfigurationMode]
/-- src/fmi3Functions.c 176 -/
def MASK_EnterContinuousTimeMode := mask [.eventMode]
/-- src/fmi3Functions.c 177 -/
def MASK_CompletedIntegratorStep := mask [.continuousTimeMode]
/-- src/fmi3Functions.c 180 -/
def MASK_SetTime := mask [.eventMode, .continuousTimeMode]
/-- src/fmi3Functions.c 181 -/
def MASK_SetContinuousStates := mask [.continuousTimeMode]
/-- src/fmi3Functions.c 184-187 -/
def MASK_GetContinuousStateDerivatives := mask [.initializationMode, .eventMode,
  .continuousTimeMode, .terminated]
/-- src/fmi3Functions.c 194 -/
def MASK_EnterStepMode := mask [.initializationMode, .eventMode]
/-- src/fmi3Functions.c 196 -/
def MASK_GetOutputDerivatives := mask [.stepMode, .stepDiscarded, .terminated]
/-- src/fmi3Functions.c 197 -/
def MASK_DoStep := mask [.stepMode]
/-- src/fmi3Functions.c 198 -/
def MASK_ActivateModelPartition := mask [.clockActivationMode]

section
variable {F D : Type}

/-- `BEGIN_FUNCTION(F)`, src/fmi3Functions.c 213-217. -/
def begin {β : Type} (mask : Nat) (name : String) (c : Comp F D) (stop : β)
    (k : Comp F D → Res F D β) : Res F D β :=
  beginFunction (allowed c.ctx mask) name c stop k

/-- `logError(...); CALL(Error);`. For example src/fmi3Functions.c 1206-1210; the macro `CALL` is in lines 33-47. -/
def fail {β : Type} (c : Comp F D) (msg : String) (stop : β) : Res F D β :=
  .ret ((c.logError msg).setState .terminated, .Error, stop)

/-- The function name in the log message of `BEGIN_FUNCTION(Get ## T)`. src/fmi3Functions.c 50, 213-217. -/
def getName (t : VType) : String := "fmi3Get" ++ t.name
/-- The function name in the log message of `BEGIN_FUNCTION(Set ## T)`. src/fmi3Functions.c 69, 213-217. -/
def setName (t : VType) : String := "fmi3Set" ++ t.name

/-- `GET_VARIABLES(T)`, src/fmi3Functions.c 49-66, and `fmi3GetBinary`, 548-578, which has the
same text except that the final check of `index` is missing. The functions are
src/fmi3Functions.c 452-578. -/
def getVars (m : Model F D) (t : VType) (c : Comp F D) (vr : Ptr Nat) (nvr : Nat)
    (values : Ptr (t.Val F)) (nValues : Nat) : Res F D (Ptr (t.Val F)) :=
  begin MASK_Get (getName t) c values fun c =>
  if nvr = 0 then .ret (c, .OK, values) else
  assertNonNull vr c values <|
  (fun k => if nValues > 0 then assertNonNull values c values k else k) <|
  refresh m .OK c values fun c st =>
  getLoop m t vr nValues nvr 0 c st values 0 >>- fun (c, st, (values, index)) =>
  if st = .Discard ∨ st = .Error ∨ st = .Fatal then .ret (c, st, values)
  else if t ≠ .binary ∧ index ≠ nValues then fail c "Expected nValues = %zu but was %zu." values
  else .ret (c, st, values)

/-- The mask of a Set function, src/fmi3Functions.c 131-143. -/
def setMask : VType → Nat
  | .float32 => MASK_SetFloat
  | .float64 => MASK_SetFloat
  | _ => MASK_SetInt

/-- `SET_VARIABLES(T)`, src/fmi3Functions.c 68-81, and `fmi3SetBinary`, 689-720 (same text). The
functions are src/fmi3Functions.c 593-720. -/
def setVars (m : Model F D) (t : VType) (c : Comp F D) (vr : Ptr Nat) (nvr : Nat)
    (values : Ptr (t.Val F)) (nValues : Nat) : Res F D Unit :=
  begin (setMask t) (setName t) c () fun c =>
  if nvr = 0 then .ret (c, .OK, ()) else
  assertNonNull vr c () <|
  setLoop m t vr values nValues nvr 0 c .OK 0 >>- fun (c, st, index) =>
  if st = .Discard ∨ st = .Error ∨ st = .Fatal then .ret (c, st, ())
  else
    let c := c.setDirty true
    if index ≠ nValues then fail c "Expected nValues = %zu but was %zu." ()
    else .ret (c, st, ())

/-- Loop of `fmi3GetClock`, src/fmi3Functions.c 586-588. The address `&values[i]` must exist. -/
def getClockLoop (m : Model F D) (vr : Ptr Nat) :
    (n i : Nat) → Comp F D → Status → Ptr Bool → Res F D (Ptr Bool)
  | 0, _, c, st, values => .ret (c, st, values)
  | n + 1, i, c, st, values =>
    vr.read i >>- fun r => values.read i >>- fun old =>
    c.lift (m.getClock c.ctx c.mv r old) >>- fun (c, s, v) =>
    values.write i v >>- fun values =>
    call st (.ret (c, s, ())) (fun _ => values) fun c st _ => getClockLoop m vr n (i + 1) c st values

/-- `fmi3GetClock`, src/fmi3Functions.c 580-591. -/
def getClock (m : Model F D) (c : Comp F D) (vr : Ptr Nat) (nvr : Nat) (values : Ptr Bool) :
    Res F D (Ptr Bool) :=
  begin MASK_AnyState "fmi3GetClock" c values fun c => getClockLoop m vr nvr 0 c .OK values

/-- Loop of `fmi3SetClock`, src/fmi3Functions.c 728-732. -/
def setClockLoop (m : Model F D) (vr : Ptr Nat) (values : Ptr Bool) :
    (n i : Nat) → Comp F D → Status → Res F D Unit
  | 0, _, c, st => .ret (c, st, ())
  | n + 1, i, c, st =>
    values.read i >>- fun v =>
    if v then
      vr.read i >>- fun r =>
      call st (c.lift (m.activateClock c.ctx c.mv r)) id fun c st _ =>
      setClockLoop m vr values n (i + 1) c st
    else setClockLoop m vr values n (i + 1) c st

/-- `fmi3SetClock`, src/fmi3Functions.c 722-735. -/
def setClock (m : Model F D) (c : Comp F D) (vr : Ptr Nat) (nvr : Nat) (values : Ptr Bool) :
    Res F D Unit :=
  begin MASK_AnyState "fmi3SetClock" c () fun c => setClockLoop m vr values nvr 0 c .OK

/-- `NOT_IMPLEMENTED`, src/fmi3Functions.c 206-211: `fmi3GetNumberOfVariableDependencies`
(737-744), `fmi3GetVariableDependencies` (746-762), `fmi3GetIntervalFraction` (947-961),
`fmi3GetShiftDecimal`, `fmi3GetShiftFraction`, `fmi3SetIntervalDecimal`,
`fmi3SetIntervalFraction`, `fmi3SetShiftDecimal`, `fmi3SetShiftFraction`,
`fmi3EvaluateDiscreteStates` (963-1043). -/
def notImplemented {β : Type} (c : Comp F D) (out : β) : Res F D β :=
  .ret (c.logError "Function is not implemented.", .Error, out)

/-- `fmi3SetDebugLogging`, src/fmi3Functions.c 245-252. -/
def setDebugLogging (c : Comp F D) (on : Bool) (n : Nat) (cats : Ptr (Option String)) :
    Res F D Unit :=
  begin MASK_AnyState "fmi3SetDebugLogging" c () fun c =>
  callLast (Verif.setDebugLogging c on n cats) id

/-- `fmi3InstantiateModelExchange`, src/fmi3Functions.c 254-285. -/
def instantiateModelExchange [Arith F] (m : Model F D) (name token : Option String)
    (resource : Ptr UInt8) (loggingOn logger mem : Bool) : Option (Comp F D) × List (Ev F) :=
  if !m.modelExchange then (none, [])
  else createModelInstance m true logger false name token resource loggingOn mem .modelExchange

/-- `fmi3InstantiateCoSimulation`, src/fmi3Functions.c 287-331. -/
def instantiateCoSimulation [Arith F] (m : Model F D) (name token : Option String)
    (resource : Ptr UInt8) (loggingOn eventModeUsed earlyReturnAllowed logger iu mem : Bool) :
    Option (Comp F D) × List (Ev F) :=
  if m.eventUpdate.isNone && eventModeUsed then
    (none, if logger then [.log .Error "error" "Event Mode is not supported."] else [])
  else
    let (c, l) := createModelInstance m true logger iu name token resource loggingOn mem
      .coSimulation
    (c.map fun c => { c.setState .instantiated with
      earlyReturnAllowed := earlyReturnAllowed, eventModeUsed := eventModeUsed }, l)

/-- `fmi3InstantiateScheduledExecution`, src/fmi3Functions.c 333-381. -/
def instantiateScheduledExecution [Arith F] (m : Model F D) (name token : Option String)
    (resource : Ptr UInt8) (loggingOn logger clockUpdate lock unlock mem : Bool) :
    Option (Comp F D) × List (Ev F) :=
  if !m.scheduledExecution then (none, [])
  else
    let (c, l) := createModelInstance m true logger false name token resource loggingOn mem
      .scheduledExecution
    (c.map fun c => { c with ctx := { c.ctx with
      state := .instantiated, clockUpdate := clockUpdate, lockPreemption := lock,
      unlockPreemption := unlock } }, l)

/-- `fmi3EnterInitializationMode`, src/fmi3Functions.c 387-405. -/
def enterInitializationMode [HasInf F] (c : Comp F D) (startTime : F) (stopTimeDefined : Bool)
    (stopTime : F) : Res F D Unit :=
  begin MASK_EnterInitializationMode "fmi3EnterInitializationMode" c () fun c =>
  .ret ({ (c.setTime startTime).setState .initializationMode with
    startTime := startTime
    stopTime := if stopTimeDefined then stopTime else HasInf.inf
    nextCommunicationPoint := startTime }, .OK, ())

/-- The state after initialization, src/fmi3Functions.c 417-427. -/
def stateAfterInit (c : Comp F D) : Mode :=
  match c.ctx.typ with
  | .modelExchange => .eventMode
  | .coSimulation => if c.eventModeUsed then .eventMode else .stepMode
  | .scheduledExecution => .clockActivationMode

/-- `fmi3ExitInitializationMode`, src/fmi3Functions.c 407-432. -/
def exitInitializationMode (m : Model F D) (c : Comp F D) : Res F D Unit :=
  begin MASK_ExitInitializationMode "fmi3ExitInitializationMode" c () fun c =>
  refresh m .OK c () fun c st =>
  let c := c.setState (stateAfterInit c)
  call st (configurate m c) id fun c st _ => .ret (c, st, ())

/-- `fmi3EnterEventMode`, src/fmi3Functions.c 434-438. -/
def enterEventMode (c : Comp F D) : Res F D Unit :=
  begin MASK_EnterEventMode "fmi3EnterEventMode" c () fun c => .ret (c.setState .eventMode, .OK, ())

/-- `fmi3Terminate`, src/fmi3Functions.c 440-444. -/
def terminate (c : Comp F D) : Res F D Unit :=
  begin MASK_Terminate "fmi3Terminate" c () fun c => .ret (c.setState .terminated, .OK, ())

/-- `fmi3Reset`, src/fmi3Functions.c 446-450. -/
def reset [Arith F] (m : Model F D) (c : Comp F D) : Res F D Unit :=
  begin MASK_AnyState "fmi3Reset" c () fun c => callLast (Verif.reset m c) id

/-- `fmi3GetFMUState`, src/fmi3Functions.c 764-768, with `getFMUState`,
src/cosimulation.c 591-598. Simplification: the allocation succeeds. -/
def getFMUState (c : Comp F D) (slot : Option (Comp F D)) : Res F D (Option (Comp F D)) :=
  begin MASK_AnyState "fmi3GetFMUState" c slot fun c => .ret (c, .OK, some c)

/-- `fmi3SetFMUState`, src/fmi3Functions.c 770-774, with `setFMUState`,
src/cosimulation.c 600-662. -/
def setFMUState (m : Model F D) (c : Comp F D) (s : Option (Comp F D)) : Res F D Unit :=
  begin MASK_AnyState "fmi3SetFMUState" c () fun c =>
  callLast (match s with
    | none => .ret (c.logError "Argument must not be NULL", .Error, ())
    | some s => .ret (Verif.setFMUState m c s, .OK, ())) id

/-- `fmi3FreeFMUState`, src/fmi3Functions.c 776-781. -/
def freeFMUState (c : Comp F D) (slot : Option (Comp F D)) : Res F D (Option (Comp F D)) :=
  begin MASK_AnyState "fmi3FreeFMUState" c slot fun c => .ret (c, .OK, none)

/-- `fmi3SerializedFMUStateSize`, src/fmi3Functions.c 783-794. -/
def serializedFMUStateSize (m : Model F D) (c : Comp F D) (size : Option Nat) :
    Res F D (Option Nat) :=
  begin MASK_AnyState "fmi3SerializedFMUStateSize" c size fun c =>
  match size with
  | none => .ub
  | some _ => .ret (c, .OK, some m.sizeOf)

/-- `fmi3SerializeFMUState`, src/fmi3Functions.c 796-813. -/
def serializeFMUState (m : Model F D) (c : Comp F D) (s : Option (Comp F D))
    (buf : Option (Buffer F D)) (size : Nat) : Res F D (Option (Buffer F D)) :=
  begin MASK_AnyState "fmi3SerializeFMUState" c buf fun c =>
  match s with
  | none => .ret (c.invalidArg "%s: Invalid argument %s = NULL.", .Error, buf)
  | some s =>
    if size ≠ m.sizeOf then
      .ret (c.invalidArg "%s: Invalid argument %s = %d. Expected %d.", .Error, buf)
    else Buffer.store m buf s >>- fun buf => .ret (c, .OK, buf)

/-- `fmi3DeserializeFMUState`, src/fmi3Functions.c 815-836. Simplification: the allocation
succeeds. -/
def deserializeFMUState (m : Model F D) (c : Comp F D) (buf : Option (Buffer F D)) (size : Nat)
    (slot : Option (Comp F D)) : Res F D (Option (Comp F D)) :=
  begin MASK_AnyState "fmi3DeserializeFMUState" c slot fun c =>
  if size ≠ m.sizeOf then
    .ret (c.invalidArg "%s: Invalid argument %s = %d. Expected %d.", .Error, slot)
  else Buffer.load m buf >>- fun s => .ret (c, .OK, some s)

/-- `fmi3GetDirectionalDerivative`, src/fmi3Functions.c 838-867. `nSeed` and `nSensitivity` are
unused. The arrays are assumed not to overlap. -/
def getDirectionalDerivative [Arith F] (m : Model F D) (c : Comp F D) (unknowns : Ptr Nat)
    (nUnknowns : Nat) (knowns : Ptr Nat) (nKnowns : Nat) (seed sensitivity : Ptr F) :
    Res F D (Ptr F) :=
  begin MASK_GetDirectionalDerivative "fmi3GetDirectionalDerivative" c sensitivity fun c =>
  derivOuter m (fun i j => unknowns.read i >>- fun u => knowns.read j >>- fun k => .ret (u, k))
    seed nKnowns nUnknowns 0 c .OK sensitivity

/-- `fmi3GetAdjointDerivative`, src/fmi3Functions.c 869-896. -/
def getAdjointDerivative [Arith F] (m : Model F D) (c : Comp F D) (unknowns : Ptr Nat)
    (nUnknowns : Nat) (knowns : Ptr Nat) (nKnowns : Nat) (seed sensitivity : Ptr F) :
    Res F D (Ptr F) :=
  begin MASK_GetDirectionalDerivative "fmi3GetAdjointDerivative" c sensitivity fun c =>
  derivOuter m (fun i j => unknowns.read j >>- fun u => knowns.read i >>- fun k => .ret (u, k))
    seed nUnknowns nKnowns 0 c .OK sensitivity

/-- `fmi3EnterConfigurationMode`, src/fmi3Functions.c 898-902. -/
def enterConfigurationMode (c : Comp F D) : Res F D Unit :=
  begin MASK_EnterConfigurationMode "fmi3EnterConfigurationMode" c () fun c =>
  .ret (c.setState (if c.ctx.state = .instantiated then .configurationMode
    else .reconfigurationMode), .OK, ())

/-- The state after (re)configuration, src/fmi3Functions.c 907-921. -/
def stateAfterConfig (c : Comp F D) : Mode :=
  if c.ctx.state = .configurationMode then .instantiated
  else match c.ctx.typ with
    | .modelExchange => .eventMode
    | .coSimulation => .stepMode
    | .scheduledExecution => .clockActivationMode

/-- `fmi3ExitConfigurationMode`, src/fmi3Functions.c 904-928. -/
def exitConfigurationMode (m : Model F D) (c : Comp F D) : Res F D Unit :=
  begin MASK_ExitConfigurationMode "fmi3ExitConfigurationMode" c () fun c =>
  let c := c.setState (stateAfterConfig c)
  if m.maxNX > 0 || m.maxNZ > 0 then callLast (configurate m c) id
  else .ret (c, .OK, ())

/-- Loop of `fmi3GetIntervalDecimal`, src/fmi3Functions.c 940-942. -/
def getIntervalLoop (m : Model F D) (vr : Ptr Nat) :
    (n i : Nat) → Comp F D → Status → Ptr F × Ptr Int → Res F D (Ptr F × Ptr Int)
  | 0, _, c, st, out => .ret (c, st, out)
  | n + 1, i, c, st, (intervals, qualifiers) =>
    vr.read i >>- fun r => intervals.read i >>- fun oldI => qualifiers.read i >>- fun oldQ =>
    c.lift (m.getInterval c.ctx c.mv r oldI oldQ) >>- fun (c, s, (vi, vq)) =>
    intervals.write i vi >>- fun intervals => qualifiers.write i vq >>- fun qualifiers =>
    call st (.ret (c, s, ())) (fun _ => (intervals, qualifiers)) fun c st _ =>
      getIntervalLoop m vr n (i + 1) c st (intervals, qualifiers)

/-- `fmi3GetIntervalDecimal`, src/fmi3Functions.c 930-945. -/
def getIntervalDecimal (m : Model F D) (c : Comp F D) (vr : Ptr Nat) (nvr : Nat)
    (intervals : Ptr F) (qualifiers : Ptr Int) : Res F D (Ptr F × Ptr Int) :=
  begin MASK_AnyState "fmi3GetIntervalDecimal" c (intervals, qualifiers) fun c =>
  getIntervalLoop m vr nvr 0 c .OK (intervals, qualifiers)

end

/-- The output pointers of `fmi3UpdateDiscreteStates`; each may be NULL (`none`). src/fmi3Functions.c 1045-1051. -/
structure EventOut (F : Type) where
  discreteStatesNeedUpdate : Option Bool
  terminateSimulation : Option Bool
  nominalsChanged : Option Bool
  valuesChanged : Option Bool
  nextEventTimeDefined : Option Bool
  nextEventTime : Option F
  deriving DecidableEq, Repr

/-- The output pointers of `fmi3DoStep`. src/fmi3Functions.c 1194-1201. -/
structure StepOut (F : Type) where
  eventHandlingNeeded : Option Bool
  terminateSimulation : Option Bool
  earlyReturn : Option Bool
  lastSuccessfulTime : Option F
  deriving DecidableEq, Repr

section
variable {F D : Type}

/-- src/fmi3Functions.c 1058-1064 -/
def fillEventOut (mv : MV F D) (o : EventOut F) : EventOut F where
  discreteStatesNeedUpdate := o.discreteStatesNeedUpdate.map fun _ => mv.newDiscreteStatesNeeded
  terminateSimulation := o.terminateSimulation.map fun _ => mv.terminateSimulation
  nominalsChanged := o.nominalsChanged.map fun _ => mv.nominalsChanged
  valuesChanged := o.valuesChanged.map fun _ => mv.valuesChanged
  nextEventTimeDefined := o.nextEventTimeDefined.map fun _ => mv.nextEventTimeDefined
  nextEventTime := o.nextEventTime.map fun _ => mv.nextEventTime

/-- `fmi3UpdateDiscreteStates`, src/fmi3Functions.c 1045-1067. -/
def updateDiscreteStates (m : Model F D) (c : Comp F D) (out : EventOut F) : Res F D (EventOut F) :=
  begin MASK_AnyState "fmi3NewDiscreteStates" c out fun c =>
  match m.eventUpdate with
  | none => .ret (c, .OK, fillEventOut c.mv out)
  | some eu => call .OK (c.lift (eu c.ctx c.mv)) (fun _ => out) fun c st _ =>
      .ret (c, st, fillEventOut c.mv out)

/-- `fmi3EnterContinuousTimeMode`, src/fmi3Functions.c 1073-1077. -/
def enterContinuousTimeMode (c : Comp F D) : Res F D Unit :=
  begin MASK_EnterContinuousTimeMode "fmi3EnterContinuousTimeMode" c () fun c =>
  .ret (c.setState .continuousTimeMode, .OK, ())

/-- `fmi3CompletedIntegratorStep`, src/fmi3Functions.c 1079-1094. -/
def completedIntegratorStep (c : Comp F D) (enterEventMode terminateSimulation : Option Bool) :
    Res F D (Option Bool × Option Bool) :=
  begin MASK_CompletedIntegratorStep "fmi3CompletedIntegratorStep" c
    (enterEventMode, terminateSimulation) fun c =>
  assertNonNull enterEventMode c (enterEventMode, terminateSimulation) <|
  assertNonNull terminateSimulation c (enterEventMode, terminateSimulation) <|
  .ret (c, .OK, (some false, some false))

/-- `fmi3SetTime`, src/fmi3Functions.c 1097-1101. -/
def setTime (c : Comp F D) (t : F) : Res F D Unit :=
  begin MASK_SetTime "fmi3SetTime" c () fun c => .ret (c.setTime t, .OK, ())

/-- `fmi3SetContinuousStates`, src/fmi3Functions.c 1103-1109. -/
def setContinuousStates (m : Model F D) (c : Comp F D) (x : Ptr F) (nx : Nat) : Res F D Unit :=
  begin MASK_SetContinuousStates "fmi3SetContinuousStates" c () fun c =>
  callLast (c.lift (m.setContinuousStates c.ctx c.mv x nx)) fun _ => ()

/-- `fmi3GetContinuousStateDerivatives`, src/fmi3Functions.c 1112-1118. -/
def getDerivatives (m : Model F D) (c : Comp F D) (dx : Ptr F) (nx : Nat) : Res F D (Ptr F) :=
  begin MASK_GetContinuousStateDerivatives "fmi3GetContinuousStateDerivatives" c dx fun c =>
  callLast (c.lift (m.getDerivatives c.ctx c.mv dx nx)) id

/-- `fmi3GetEventIndicators`, src/fmi3Functions.c 1120-1126. -/
def getEventIndicators (m : Model F D) (c : Comp F D) (z : Ptr F) (nz : Nat) : Res F D (Ptr F) :=
  begin MASK_GetContinuousStateDerivatives "fmi3GetEventIndicators" c z fun c =>
  callLast (c.lift (m.getEventIndicators c.ctx c.mv z nz)) id

/-- `fmi3GetContinuousStates`, src/fmi3Functions.c 1128-1134. -/
def getContinuousStates (m : Model F D) (c : Comp F D) (x : Ptr F) (nx : Nat) : Res F D (Ptr F) :=
  begin MASK_GetContinuousStateDerivatives "fmi3GetContinuousStates" c x fun c =>
  callLast (c.lift (m.getContinuousStates c.ctx c.mv x nx)) id

/-- `fmi3GetNominalsOfContinuousStates`, src/fmi3Functions.c 1136-1142. -/
def getNominals (m : Model F D) (c : Comp F D) (x : Ptr F) (nx : Nat) : Res F D (Ptr F) :=
  begin MASK_GetContinuousStateDerivatives "fmi3GetNominalsOfContinuousStates" c x fun c =>
  callLast (c.lift (m.getNominals c.ctx c.mv x nx)) id

/-- `fmi3GetNumberOfEventIndicators`, src/fmi3Functions.c 1144-1149. -/
def getNumberOfEventIndicators (m : Model F D) (c : Comp F D) (n : Option Nat) :
    Res F D (Option Nat) :=
  begin MASK_AnyState "fmi3GetNumberOfEventIndicators" c n fun c =>
  match n with
  | none => .ub
  | some _ => .ret (c, .OK, some (m.numEventIndicators c.mv))

/-- `fmi3GetNumberOfContinuousStates`, src/fmi3Functions.c 1151-1156. -/
def getNumberOfContinuousStates (m : Model F D) (c : Comp F D) (n : Option Nat) :
    Res F D (Option Nat) :=
  begin MASK_AnyState "fmi3GetNumberOfContinuousStates" c n fun c =>
  match n with
  | none => .ub
  | some _ => .ret (c, .OK, some (m.numContinuousStates c.mv))

/-- `fmi3EnterStepMode`, src/fmi3Functions.c 1162-1166. -/
def enterStepMode (c : Comp F D) : Res F D Unit :=
  begin MASK_EnterStepMode "fmi3EnterStepMode" c () fun c => .ret (c.setState .stepMode, .OK, ())

/-- `fmi3GetOutputDerivatives`, src/fmi3Functions.c 1168-1192. -/
def getOutputDerivatives (m : Model F D) (c : Comp F D) (vr : Ptr Nat) (nvr : Nat)
    (orders : Ptr Int) (values : Ptr F) : Res F D (Ptr F) :=
  begin MASK_GetOutputDerivatives "fmi3GetOutputDerivatives" c values fun c =>
  match m.getOutputDerivative with
  | some f => outputDerivLoop f vr orders nvr 0 c .OK values
  | none => notImplemented c values

/-- The end of `fmi3DoStep`, src/fmi3Functions.c 1275-1283, after leaving the loop with the
local `nextCommunicationPointReached = reached` and `*eventHandlingNeeded = ehn`. -/
def doStepEnd (next : F) (out : StepOut F) (c : Comp F D) (st : Status) (ehn reached : Bool) :
    Res F D (StepOut F) :=
  match out.lastSuccessfulTime with
  | none => .ub
  | some _ => .ret ({ c with nextCommunicationPoint := if reached then next else c.ctx.time }, st,
      { eventHandlingNeeded := some ehn
        terminateSimulation := some c.mv.terminateSimulation
        earlyReturn := some (c.earlyReturnAllowed && !reached)
        lastSuccessfulTime := some c.ctx.time })

/-- The handler call at the top of the loop of `fmi3DoStep`, src/fmi3Functions.c 1241-1246:
returns the new instance and the new `*eventHandlingNeeded`. The status of `eventUpdate` is
ignored. -/
def pendingEvent (m : Model F D) (c : Comp F D) (ehn : Bool) : Outcome (Comp F D × Bool) :=
  match m.eventUpdate with
  | none => .ret (c, ehn)
  | some eu =>
    if ehn then c.lift (eu c.ctx c.mv) >>- fun (c, _, _) => .ret (c, false)
    else .ret (c, ehn)

/-- Event handling after a solver step without event mode, src/fmi3Functions.c 1258-1261. -/
def internalEvent {β : Type} (m : Model F D) (eu : Ctx F → MV F D → MRes F D Unit)
    (c : Comp F D) (st : Status) (stop : β) (k : Comp F D → Status → Res F D β) : Res F D β :=
  call st (c.lift (eu c.ctx c.mv)) (fun _ => stop) fun c st _ =>
  if m.maxNZ > 0 then
    call st (c.lift (m.getEventIndicators c.ctx c.mv (some c.prez) c.nz)) (fun _ => stop)
      fun c st p => k { c with prez := p.getD c.prez } st
  else k c st

/-- The loop of `fmi3DoStep`, src/fmi3Functions.c 1231-1273, followed by the end of the
function. `ehn` is `*eventHandlingNeeded`; `hang` if `fuel` iterations do not suffice. -/
def doStepLoop [Arith F] (m : Model F D) (next : F) (out : StepOut F) :
    (fuel : Nat) → Comp F D → Status → (ehn : Bool) → Res F D (StepOut F)
  | 0, _, _, _ => .hang
  | fuel + 1, c, st, ehn =>
    let nextSolverStepTime := c.ctx.time +. m.h
    let reached := next <. nextSolverStepTime && !isClose nextSolverStepTime next
    if reached || (ehn && c.earlyReturnAllowed) then doStepEnd next out c st ehn reached
    else
      pendingEvent m c ehn >>- fun (c, ehn) =>
      let stop (ehn : Bool) : StepOut F := { out with
        eventHandlingNeeded := some ehn, terminateSimulation := some false,
        earlyReturn := some false }
      call st (doFixedStep m c) (fun _ => stop ehn) fun c st ev =>
      let rest (c : Comp F D) (st : Status) (ehn : Bool) : Res F D (StepOut F) :=
        if c.mv.terminateSimulation then doStepEnd next out c st ehn reached
        else doStepLoop m next out fuel c st ehn
      match m.eventUpdate with
      | none => rest c st ehn
      | some eu =>
        match ev with
        | none => .ub
        | some (stateEvent, timeEvent) =>
          if stateEvent || timeEvent then
            let early (c : Comp F D) (st : Status) (ehn : Bool) : Res F D (StepOut F) :=
              if c.earlyReturnAllowed then doStepEnd next out c st ehn reached
              else rest c st ehn
            if c.eventModeUsed then early c st true
            else internalEvent m eu c st (stop ehn) fun c st => early c st ehn
          else rest c st ehn

/-- `fmi3DoStep`, src/fmi3Functions.c 1194-1286. -/
def doStep [Arith F] (m : Model F D) (fuel : Nat) (c : Comp F D) (ccp step : F) (out : StepOut F) :
    Res F D (StepOut F) :=
  begin MASK_DoStep "fmi3DoStep" c out fun c =>
  if !isClose ccp c.nextCommunicationPoint then
    fail c "Expected currentCommunicationPoint = %.16g but was %.16g." out
  else if step <=. Arith.lit 0 then fail c "Communication step size must be > 0 but was %.16g." out
  else
    let next := ccp +. step
    if c.stopTime <. next && !isClose next c.stopTime then
      fail c "At communication point %.16g a step size of %.16g was requested but stop time is %.16g." out
    else if out.eventHandlingNeeded.isNone || out.terminateSimulation.isNone
        || out.earlyReturn.isNone then .ub
    else doStepLoop m next out fuel c .OK false

/-- `fmi3ActivateModelPartition`, src/fmi3Functions.c 1288-1294. -/
def activateModelPartition (m : Model F D) (c : Comp F D) (clock : Nat) (t : F) : Res F D Unit :=
  begin MASK_ActivateModelPartition "fmi3ActivateModelPartition" c () fun c =>
  callLast (c.lift (m.activateModelPartition c.ctx c.mv clock t)) id

end
end FMI3
end Verif
