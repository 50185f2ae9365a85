import Verif.Basic

/-!
# The common FMU runtime: `include/model.h` and `src/cosimulation.c`

`F` is the type of `double`, `D` the type of the FMU's `ModelData`.
-/

namespace Verif

/-- The part of `ModelInstance` (include/model.h 101-160) that `model.c` functions read but
never write: `time`, `type`, `state`, `logErrors`, `logEvents`, whether `logger`,
`clockUpdate`, `lockPreemption`, `unlockPreemption` are non-NULL, and `resourceLocation`
(bytes before the terminator). Simplification: callbacks are only known to be NULL or not. -/
structure Ctx (F : Type) where
  time : F
  typ : IType
  state : Mode
  logErrors : Bool
  logEvents : Bool
  logger : Bool
  resourceLocation : Ptr UInt8
  clockUpdate : Bool
  lockPreemption : Bool
  unlockPreemption : Bool
  deriving DecidableEq, Repr

/-- The part of `ModelInstance` (include/model.h 126-137) that `model.c` functions may write:
event info, `clocksTicked`, `isDirtyValues`, `modelData`. `trace` is a ghost field that
records the callback invocations of the instance in order. -/
structure MV (F D : Type) where
  newDiscreteStatesNeeded : Bool
  terminateSimulation : Bool
  nominalsChanged : Bool
  valuesChanged : Bool
  nextEventTimeDefined : Bool
  nextEventTime : F
  clocksTicked : Bool
  isDirtyValues : Bool
  data : D
  trace : List (Ev F)
  deriving DecidableEq, Repr

/-- `ModelInstance`, include/model.h 101-160. Not modelled: `componentEnvironment` (an opaque
pointer handed to callbacks). `intermediateUpdate` records whether the callback is
non-NULL. Models without event indicators / continuous states have `nz = 0` / `nx = 0` and
empty arrays instead of no fields. -/
structure Comp (F D : Type) where
  ctx : Ctx F
  mv : MV F D
  startTime : F
  stopTime : F
  instanceName : String
  status : Status
  intermediateUpdate : Bool
  nSteps : Nat
  earlyReturnAllowed : Bool
  eventModeUsed : Bool
  nextCommunicationPoint : F
  nz : Nat
  z : List F
  prez : List F
  nx : Nat
  x : List F
  dx : List F
  deriving DecidableEq, Repr

/-- Result of a `model.c` function: new writable part, status, output arguments. The functions of include/model.h 174-227. -/
abbrev MRes (F D β : Type) := Outcome (MV F D × Status × β)

/-- Result of a function on the whole instance. The functions of src/fmi2Functions.c 213-724 and src/fmi3Functions.c 239-1294. -/
abbrev Res (F D β : Type) := Outcome (Comp F D × Status × β)

section
variable {F D : Type}

/-- `logError` and `logMessage`, src/cosimulation.c 269-302, 314-322. The message is the
format string; formatting and its allocation are not modelled. -/
def logError (ctx : Ctx F) (mv : MV F D) (msg : String) : MV F D :=
  if ctx.logErrors && ctx.logger then
    { mv with trace := mv.trace ++ [.log .Error "logStatusError" msg] }
  else mv

/-- `logEvent`, src/cosimulation.c 304-312. No function of the FMU runtime calls it. -/
def logEvent (ctx : Ctx F) (mv : MV F D) (msg : String) : MV F D :=
  if ctx.logEvents && ctx.logger then
    { mv with trace := mv.trace ++ [.log .OK "logEvents" msg] }
  else mv

/-- `logError` on an instance, src/cosimulation.c 314-322. -/
def Comp.logError (c : Comp F D) (msg : String) : Comp F D :=
  { c with mv := Verif.logError c.ctx c.mv msg }

/-- Return `Error` after logging, the pattern `logError(...); return Error;` of `model.c`
and the macros of include/model.h 248-268. -/
def failM {β : Type} (ctx : Ctx F) (mv : MV F D) (msg : String) (b : β) : MRes F D β :=
  .ret (logError ctx mv msg, .Error, b)

/-- `ASSERT_NVALUES(N)` followed by `k`, include/model.h 255-262. -/
def assertNValues {β : Type} (ctx : Ctx F) (mv : MV F D) (n nValues index : Nat) (b : β)
    (k : MRes F D β) : MRes F D β :=
  if index + n > nValues then failM ctx mv "Expected nValues >= %zu but was %zu." b else k

/-- `ASSERT_NOT_NULL2(V)` followed by `k`, include/model.h 248-252. -/
def assertNotNull {α β : Type} (ctx : Ctx F) (mv : MV F D) (p : Option α) (b : β)
    (k : MRes F D β) : MRes F D β :=
  if p.isNone then failM ctx mv "Argument must not be NULL" b else k

/-- `ASSERT_SIZE_T(A, E)` followed by `k`, include/model.h 264-268. -/
def assertSize {β : Type} (ctx : Ctx F) (mv : MV F D) (a e : Nat) (b : β)
    (k : MRes F D β) : MRes F D β :=
  if a ≠ e then failM ctx mv "Expected size" b else k

end

/-- Names used in the messages of the stubs, src/cosimulation.c 324-493. -/
def VType.name : VType → String
  | .float32 => "Float32" | .float64 => "Float64" | .int8 => "Int8" | .uint8 => "UInt8"
  | .int16 => "Int16" | .uint16 => "UInt16" | .int32 => "Int32" | .uint32 => "UInt32"
  | .int64 => "Int64" | .uint64 => "UInt64" | .boolean => "Boolean" | .string => "String"
  | .binary => "Binary"

section
variable {F D : Type}

/-- `GET_NOT_ALLOWED`, src/cosimulation.c 324-331, used by the stubs 333-405. -/
def getStub (t : VType) (ctx : Ctx F) (mv : MV F D) (_vr : Nat) (values : Ptr (t.Val F))
    (_nValues index : Nat) : MRes F D (Ptr (t.Val F) × Nat) :=
  failM ctx mv ("Getting " ++ t.name ++ " is not allowed.") (values, index)

/-- `SET_NOT_ALLOWED`, src/cosimulation.c 407-414, used by the stubs 416-493. -/
def setStub (t : VType) (ctx : Ctx F) (mv : MV F D) (_vr : Nat) (_values : Ptr (t.Val F))
    (_nValues index : Nat) : MRes F D Nat :=
  failM ctx mv ("Setting " ++ t.name ++ " is not allowed.") index

/-- Stubs for FMUs without continuous states / event indicators: the vector functions
src/cosimulation.c 501-527, 536-541 (same text for all five). -/
def vecStub (ctx : Ctx F) (mv : MV F D) (p : Ptr F) (n : Nat) : MRes F D (Ptr F) :=
  assertSize ctx mv n 0 p (.ret (mv, .OK, p))

/-- Stub `getPartialDerivative`, src/cosimulation.c 544-553. -/
def partialStub (ctx : Ctx F) (mv : MV F D) (_u _k : Nat) (out : F) : MRes F D F :=
  failM ctx mv "Directional derivatives are not supported." out

end

/-- An FMU: what `model.c` and `config.h` provide, with the stubs of src/cosimulation.c as
defaults. The functions are declared in include/model.h 178-227; the stubs are src/cosimulation.c 324-589. -/
structure Model (F D : Type) where
  /-- `INSTANTIATION_TOKEN` -/
  token : String
  /-- whether `MODEL_EXCHANGE` is defined -/
  modelExchange : Bool := true
  /-- whether `SCHEDULED_CO_SIMULATION` is defined -/
  scheduledExecution : Bool := false
  /-- `FIXED_SOLVER_STEP` -/
  h : F
  /-- `MAX_CONTINUOUS_STATES`, 0 if undefined -/
  maxNX : Nat := 0
  /-- `MAX_EVENT_INDICATORS`, 0 if undefined -/
  maxNZ : Nat := 0
  /-- the `ModelData` of a zeroed `ModelInstance` (calloc, src/cosimulation.c 69) -/
  data0 : D
  /-- `sizeof(ModelInstance)`; the value is not modelled -/
  sizeOf : Nat := 1
  /-- `setStartValues`; both callers ignore its status -/
  setStartValues : Ctx F → MV F D → MV F D
  calculateValues : Ctx F → MV F D → MRes F D Unit
  get : (t : VType) → Ctx F → MV F D → (vr : Nat) → Ptr (t.Val F) → (nValues index : Nat) →
    MRes F D (Ptr (t.Val F) × Nat) := getStub
  set : (t : VType) → Ctx F → MV F D → (vr : Nat) → Ptr (t.Val F) → (nValues index : Nat) →
    MRes F D Nat := setStub
  /-- `some` iff `EVENT_UPDATE` is defined -/
  eventUpdate : Option (Ctx F → MV F D → MRes F D Unit) := none
  /-- `getNumberOfContinuousStates` -/
  numContinuousStates : MV F D → Nat := fun _ => 0
  /-- `getNumberOfEventIndicators` -/
  numEventIndicators : MV F D → Nat := fun _ => 0
  getContinuousStates : Ctx F → MV F D → Ptr F → Nat → MRes F D (Ptr F) := vecStub
  getNominals : Ctx F → MV F D → Ptr F → Nat → MRes F D (Ptr F) := vecStub
  setContinuousStates : Ctx F → MV F D → Ptr F → Nat → MRes F D (Ptr F) := vecStub
  getDerivatives : Ctx F → MV F D → Ptr F → Nat → MRes F D (Ptr F) := vecStub
  getEventIndicators : Ctx F → MV F D → Ptr F → Nat → MRes F D (Ptr F) := vecStub
  /-- `getPartialDerivative(comp, unknown, known, &out)`; the last argument is the value of
  `out` before the call -/
  getPartialDerivative : Ctx F → MV F D → (unknown known : Nat) → F → MRes F D F := partialStub
  /-- `some` iff `GET_OUTPUT_DERIVATIVE` is defined; the last argument is the old value of the
  output location -/
  getOutputDerivative : Option (Ctx F → MV F D → (vr : Nat) → (order : Int) → F → MRes F D F) :=
    none
  /-- stub: src/cosimulation.c 555-561 -/
  activateClock : Ctx F → MV F D → (vr : Nat) → MRes F D Unit := fun _ mv _ => .ret (mv, .Error, ())
  /-- stub: src/cosimulation.c 563-570; the last argument is the old value of the output -/
  getClock : Ctx F → MV F D → (vr : Nat) → Bool → MRes F D Bool :=
    fun _ mv _ b => .ret (mv, .Error, b)
  /-- stub: src/cosimulation.c 572-580; the last arguments are the old values of the outputs -/
  getInterval : Ctx F → MV F D → (vr : Nat) → F → Int → MRes F D (F × Int) :=
    fun _ mv _ i q => .ret (mv, .Error, (i, q))
  /-- stub: src/cosimulation.c 582-589 -/
  activateModelPartition : Ctx F → MV F D → (vr : Nat) → (time : F) → MRes F D Unit :=
    fun _ mv _ _ => .ret (mv, .Error, ())

section
variable {F D : Type}

/-- Run a `model.c` function on an instance. For example `CALL(eventUpdate(S))`, src/fmi3Functions.c 1055. -/
def Comp.lift {β : Type} (c : Comp F D) (r : MRes F D β) : Res F D β :=
  r >>- fun (mv, s, b) => .ret ({ c with mv := mv }, s, b)

/-- `comp->state = s`. For example src/fmi3Functions.c 436, 442. -/
def Comp.setState (c : Comp F D) (s : Mode) : Comp F D := { c with ctx := { c.ctx with state := s } }

/-- `comp->time = t`. For example src/fmi3Functions.c 1099. -/
def Comp.setTime (c : Comp F D) (t : F) : Comp F D := { c with ctx := { c.ctx with time := t } }

/-- `comp->isDirtyValues = b`. For example src/cosimulation.c 106, 168. -/
def Comp.setDirty (c : Comp F D) (b : Bool) : Comp F D :=
  { c with mv := { c.mv with isDirtyValues := b } }

/-- The macro `CALL(f)` of src/cosimulation.c 21: return the status unless it is `OK`.
`stop` is the value of the output arguments at an early return. -/
def callCo {α β : Type} (r : Res F D α) (stop : β) (k : Comp F D → α → Res F D β) : Res F D β :=
  r >>- fun (c, s, a) => if s ≠ .OK then .ret (c, s, stop) else k c a

/-- `createModelInstance`, src/cosimulation.c 24-109. `logger` and `iu` say whether the
callbacks are non-NULL, `mem` whether the allocations succeed. With `mem = false` the C code
logs nothing, because `comp` is NULL; if only `strdup` failed it logs "Out of memory." and leaks the
instance, which the model leaves out here (see `Mem.create`). Second component: messages sent to the logger. -/
def createModelInstance [Arith F] (m : Model F D) (ver3 logger iu : Bool)
    (name token : Option String) (resource : Ptr UInt8) (loggingOn mem : Bool) (typ : IType) :
    Option (Comp F D) × List (Ev F) :=
  let say (msg : String) : List (Ev F) := if logger then [.log .Error "error" msg] else []
  match name with
  | none => (none, say "Missing instance name.")
  | some nm =>
    if nm = "" then (none, say "Missing instance name.") else
    match token with
    | none => (none, say (if ver3 then "Missing instantiationToken." else "Missing GUID."))
    | some tk =>
      if tk = "" then (none, say (if ver3 then "Missing instantiationToken." else "Missing GUID."))
      else if tk ≠ m.token then
        (none, say (if ver3 then "Wrong instantiationToken." else "Wrong GUID."))
      else if !mem then (none, [])
      else
        let zero : F := Arith.lit 0
        let ctx : Ctx F := {
          time := zero, typ := typ, state := .instantiated, logErrors := true,
          logEvents := loggingOn, logger := logger, resourceLocation := resource,
          clockUpdate := false, lockPreemption := false, unlockPreemption := false }
        let mv : MV F D := {
          newDiscreteStatesNeeded := false, terminateSimulation := false,
          nominalsChanged := false, valuesChanged := false, nextEventTimeDefined := false,
          nextEventTime := zero, clocksTicked := false, isDirtyValues := false,
          data := m.data0, trace := [] }
        let mv := m.setStartValues ctx mv
        let mv := { mv with isDirtyValues := true }
        (some {
          ctx := ctx, mv := mv, startTime := zero, stopTime := zero, instanceName := nm,
          status := .OK, intermediateUpdate := iu, nSteps := 0, earlyReturnAllowed := false,
          eventModeUsed := false, nextCommunicationPoint := zero, nz := 0,
          z := List.replicate m.maxNZ zero, prez := List.replicate m.maxNZ zero, nx := 0,
          x := List.replicate m.maxNX zero, dx := List.replicate m.maxNX zero }, [])

/-- `configurate`, src/cosimulation.c 144-158. -/
def configurate (m : Model F D) (c : Comp F D) : Res F D Unit :=
  let fin (c : Comp F D) : Res F D Unit :=
    .ret (if m.maxNX > 0 then { c with nx := m.numContinuousStates c.mv } else c, .OK, ())
  if m.maxNZ > 0 then
    let c := { c with nz := m.numEventIndicators c.mv }
    callCo (c.lift (m.getEventIndicators c.ctx c.mv (some c.prez) c.nz)) () fun c p =>
      fin { c with prez := p.getD c.prez }
  else fin c

/-- `reset`, src/cosimulation.c 160-171. -/
def reset [Arith F] (m : Model F D) (c : Comp F D) : Res F D Unit :=
  let c := { c.setState .instantiated with
    startTime := Arith.lit 0, nSteps := 0, status := .OK }
  let c := c.setTime (Arith.lit 0)
  let c := { c with mv := m.setStartValues c.ctx c.mv }
  .ret (c.setDirty true, .OK, ())

/-- `EPSILON`, src/cosimulation.c 173. -/
def epsilon [Arith F] : F := Arith.lit (1 / 100000)

/-- `fmiAbs`, src/cosimulation.c 175-177. -/
def fmiAbs [Arith F] (v : F) : F := if Arith.lit 0 <=. v then v else Arith.neg v

/-- `fmiMax`, src/cosimulation.c 179-181. -/
def fmiMax [Arith F] (a b : F) : F := if a <. b then b else a

/-- `isClose`, src/cosimulation.c 183-190. -/
def isClose [Arith F] (a b : F) : Bool :=
  if fmiAbs (a -. b) <=. epsilon then true
  else fmiAbs (a -. b) <=. epsilon *. fmiMax (fmiAbs a) (fmiAbs b)

/-- The loop of `setDebugLogging`, src/cosimulation.c 244-257; `n` iterations from index `i`. -/
def setDebugLoggingLoop (on : Bool) (cats : Ptr (Option String)) :
    (n i : Nat) → Comp F D → Res F D Unit
  | 0, _, c => .ret (c, .OK, ())
  | n + 1, i, c => cats.read i >>- fun cat =>
    match cat with
    | none => .ret (c.logError "Argument categories[%zu] must not be NULL.", .Error, ())
    | some s =>
      if s = "logEvents" then
        setDebugLoggingLoop on cats n (i + 1) { c with ctx := { c.ctx with logEvents := on } }
      else if s = "logStatusError" then
        setDebugLoggingLoop on cats n (i + 1) { c with ctx := { c.ctx with logErrors := on } }
      else .ret (c.logError
        "Log categories[%zu] must be one of \"logEvents\" or \"logStatusError\" but was \"%s\".",
        .Error, ())

/-- `setDebugLogging`, src/cosimulation.c 235-267. -/
def setDebugLogging (c : Comp F D) (on : Bool) (n : Nat) (cats : Ptr (Option String)) :
    Res F D Unit :=
  if n > 0 then
    if cats.isNone then .ret (c.logError "Argument categories must not be NULL.", .Error, ())
    else setDebugLoggingLoop on cats n 0 c
  else .ret ({ c with ctx := { c.ctx with logEvents := on, logErrors := on } }, .OK, ())

/-- `memcpy(dst, src, n * sizeof(double))` on arrays. src/cosimulation.c 649-656, 701. -/
def copyN (dst src : List F) (n : Nat) : List F := src.take n ++ dst.drop n

/-- `setFMUState` for a non-NULL state, src/cosimulation.c 600-662. -/
def setFMUState (m : Model F D) (c s : Comp F D) : Comp F D :=
  { c with
    ctx := { c.ctx with time := s.ctx.time, state := s.ctx.state }
    mv := { s.mv with trace := c.mv.trace }
    startTime := s.startTime
    stopTime := s.stopTime
    status := s.status
    nSteps := s.nSteps
    earlyReturnAllowed := s.earlyReturnAllowed
    eventModeUsed := s.eventModeUsed
    nextCommunicationPoint := s.nextCommunicationPoint
    nz := if m.maxNZ > 0 then s.nz else c.nz
    z := if m.maxNZ > 0 then copyN c.z s.z s.nz else c.z
    prez := if m.maxNZ > 0 then copyN c.prez s.prez s.nz else c.prez
    nx := if m.maxNX > 0 then s.nx else c.nx
    x := if m.maxNX > 0 then copyN c.x s.x s.nx else c.x
    dx := if m.maxNX > 0 then copyN c.dx s.dx s.nx else c.dx }

/-- The forward Euler update `comp->x[i] += FIXED_SOLVER_STEP * comp->dx[i]` for `i < nx`,
src/cosimulation.c 673-675. Indices beyond the arrays cannot occur because the arrays have
`MAX_CONTINUOUS_STATES` elements and `nx` is at most that. -/
def eulerUpdate [Arith F] (h : F) : (nx : Nat) → (x dx : List F) → List F
  | 0, x, _ => x
  | n + 1, x :: xs, d :: ds => (x +. h *. d) :: eulerUpdate h n xs ds
  | _ + 1, x, _ => x

/-- The zero-crossing loop, src/cosimulation.c 694-698, for `i < nz`. -/
def zeroCrossing [Arith F] : (nz : Nat) → (prez z : List F) → Bool
  | 0, _, _ => false
  | n + 1, p :: ps, q :: qs =>
    ((p <=. Arith.lit 0 && Arith.lit 0 <. q) || (Arith.lit 0 <. p && q <=. Arith.lit 0))
      || zeroCrossing n ps qs
  | _ + 1, _, _ => false

/-- First part of `doFixedStep`: the Euler step, src/cosimulation.c 666-679. -/
def eulerStep [Arith F] (m : Model F D) (c : Comp F D) : Res F D Unit :=
  if m.maxNX > 0 && c.nx > 0 then
    callCo (c.lift (m.getContinuousStates c.ctx c.mv (some c.x) c.nx)) () fun c x =>
    let c := { c with x := x.getD c.x }
    callCo (c.lift (m.getDerivatives c.ctx c.mv (some c.dx) c.nx)) () fun c dx =>
    let c := { c with dx := dx.getD c.dx }
    let c := { c with x := eulerUpdate m.h c.nx c.x c.dx }
    callCo (c.lift (m.setContinuousStates c.ctx c.mv (some c.x) c.nx)) () fun c _ =>
    .ret (c, .OK, ())
  else .ret (c, .OK, ())

/-- Second part of `doFixedStep`: step counter and time, src/cosimulation.c 681-683.
`nSteps` is a `uint64_t`. -/
def advanceTime [Arith F] (m : Model F D) (c : Comp F D) : Comp F D :=
  let c := { c with nSteps := (c.nSteps + 1) % 2 ^ 64 }
  c.setTime (c.startTime +. Arith.lit (c.nSteps : Rat) *. m.h)

/-- Third part of `doFixedStep`: state events, src/cosimulation.c 685-703. -/
def detectStateEvent [Arith F] (m : Model F D) (c : Comp F D) : Res F D Bool :=
  if m.maxNZ > 0 && c.nz > 0 then
    callCo (c.lift (m.getEventIndicators c.ctx c.mv (some c.z) c.nz)) false fun c z =>
    let c := { c with z := z.getD c.z }
    let ev := zeroCrossing c.nz c.prez c.z
    .ret ({ c with prez := copyN c.prez c.z c.nz }, .OK, ev)
  else .ret (c, .OK, false)

/-- `doFixedStep`, src/cosimulation.c 664-725. The output is `none` if `*stateEvent` and
`*timeEvent` were not both written. The intermediate update callback is recorded in the
trace; what it may do is not modelled. -/
def doFixedStep [Arith F] (m : Model F D) (c : Comp F D) : Res F D (Option (Bool × Bool)) :=
  callCo (eulerStep m c) none fun c _ =>
  let c := advanceTime m c
  callCo (detectStateEvent m c) none fun c stateEvent =>
  let timeEvent := c.mv.nextEventTimeDefined && (c.mv.nextEventTime <=. c.ctx.time)
  let c := if c.intermediateUpdate then
    { c with mv := { c.mv with trace := c.mv.trace ++ [.intermediateUpdate c.ctx.time] } } else c
  .ret (c, .OK, some (stateEvent, timeEvent))

/-- The macro `CALL(f)` of src/fmi2Functions.c 178-192 and src/fmi3Functions.c 33-47 (same
text). `st` is the local variable `status`; `stop` gives the value of the output arguments at
`goto TERMINATE`. -/
def call {α β : Type} (st : Status) (r : Res F D α) (stop : α → β)
    (k : Comp F D → Status → α → Res F D β) : Res F D β :=
  r >>- fun (c, s, a) =>
    let st := if s.rank > st.rank then s else st
    match st with
    | .Discard => .ret (c, .Discard, stop a)
    | .Error => .ret (c.setState .terminated, .Error, stop a)
    | .Fatal => .ret (c.setState .startAndEnd, .Fatal, stop a)
    | st => k c st a

/-- `CALL(f)` as the last statement before `END_FUNCTION()`.
The macros are src/fmi2Functions.c 174-189 and src/fmi3Functions.c 33-47, 219-221; for example `fmi3Reset`, src/fmi3Functions.c 446-450. -/
def callLast {α β : Type} (r : Res F D α) (out : α → β) : Res F D β :=
  call .OK r out fun c st a => .ret (c, st, out a)

/-- The function-entry check: `if (!(state & mask)) { logError; CALL(Error); }`,
`BEGIN_FUNCTION` and `allowedState`, src/fmi2Functions.c 168-172, 194-207 and
src/fmi3Functions.c 213-217, 223-235. `allowed` is the outcome of the mask test, `stop` the
value of the output arguments on failure. -/
def beginFunction {β : Type} (allowed : Bool) (name : String) (c : Comp F D) (stop : β)
    (k : Comp F D → Res F D β) : Res F D β :=
  if allowed then k c
  else .ret ((c.logError (name ++ ": Illegal call sequence.")).setState .terminated, .Error, stop)

/-- `if (S->isDirtyValues) { CALL(calculateValues(S)); S->isDirtyValues = false; }`,
src/fmi2Functions.c 40-43, 263-266 and src/fmi3Functions.c 54-57, 412-415, 566-569. -/
def refresh {β : Type} (m : Model F D) (st : Status) (c : Comp F D) (stop : β)
    (k : Comp F D → Status → Res F D β) : Res F D β :=
  if c.mv.isDirtyValues then
    call st (c.lift (m.calculateValues c.ctx c.mv)) (fun _ => stop) fun c st _ =>
      k (c.setDirty false) st
  else k c st

/-- The loop `for (i = 0; i < nvr; i++) CALL(getT(S, vr[i], values, nValues, &index));`,
src/fmi2Functions.c 44-46 and src/fmi3Functions.c 59-61, 573-575: `n` iterations left, at
position `i`. -/
def getLoop (m : Model F D) (t : VType) (vr : Ptr Nat) (nValues : Nat) :
    (n i : Nat) → Comp F D → Status → Ptr (t.Val F) → (index : Nat) →
    Res F D (Ptr (t.Val F) × Nat)
  | 0, _, c, st, values, index => .ret (c, st, (values, index))
  | n + 1, i, c, st, values, index =>
    vr.read i >>- fun r =>
    call st (c.lift (m.get t c.ctx c.mv r values nValues index)) id fun c st (values, index) =>
      getLoop m t vr nValues n (i + 1) c st values index

/-- The loop `for (i = 0; i < nvr; i++) CALL(setT(S, vr[i], values, nValues, &index));`,
src/fmi2Functions.c 55-57 and src/fmi3Functions.c 73-75, 706-708. -/
def setLoop (m : Model F D) (t : VType) (vr : Ptr Nat) (values : Ptr (t.Val F)) (nValues : Nat) :
    (n i : Nat) → Comp F D → Status → (index : Nat) → Res F D Nat
  | 0, _, c, st, index => .ret (c, st, index)
  | n + 1, i, c, st, index =>
    vr.read i >>- fun r =>
    call st (c.lift (m.set t c.ctx c.mv r values nValues index)) id fun c st index =>
      setLoop m t vr values nValues n (i + 1) c st index

/-- `ASSERT_NOT_NULL(p)` followed by `k`, src/fmi2Functions.c 25-32 and
src/fmi3Functions.c 24-31. -/
def assertNonNull {α β : Type} (p : Option α) (c : Comp F D) (stop : β) (k : Res F D β) : Res F D β :=
  if p.isNone then
    .ret ((c.logError "Argument %s must not be NULL.").setState .terminated, .Error, stop)
  else k

/-- Inner loop of the directional derivative functions: accumulate
`acc += partial(u, known[j]) * seed[j]`, src/fmi2Functions.c 438-442, src/fmi3Functions.c
859-863. `unk`/`kno` give the pair of references of iteration `j`, so that the same text serves
the adjoint loop src/fmi3Functions.c 888-892. -/
def derivInner [Arith F] (m : Model F D) (pair : Nat → Outcome (Nat × Nat)) (seed : Ptr F) :
    (n j : Nat) → Comp F D → Status → F → Res F D F
  | 0, _, c, st, acc => .ret (c, st, acc)
  | n + 1, j, c, st, acc =>
    pair j >>- fun (u, k) =>
    call st (c.lift (m.getPartialDerivative c.ctx c.mv u k (Arith.lit 0))) (fun _ => acc)
      fun c st p =>
      seed.read j >>- fun s => derivInner m pair seed n (j + 1) c st (acc +. p *. s)

/-- Outer loop of the directional derivative functions, src/fmi2Functions.c 436-443,
src/fmi3Functions.c 857-864 and (adjoint) 886-893. -/
def derivOuter [Arith F] (m : Model F D) (pair : Nat → Nat → Outcome (Nat × Nat)) (seed : Ptr F)
    (nInner : Nat) : (n i : Nat) → Comp F D → Status → Ptr F → Res F D (Ptr F)
  | 0, _, c, st, out => .ret (c, st, out)
  | n + 1, i, c, st, out =>
    out.write i (Arith.lit 0) >>- fun out =>
    derivInner m (pair i) seed nInner 0 c st (Arith.lit 0) >>- fun (c, st, v) =>
    -- the accumulator lives in `out[i]`
    out.write i v >>- fun out =>
    if st = .Discard ∨ st = .Error ∨ st = .Fatal then .ret (c, st, out)
    else derivOuter m pair seed nInner n (i + 1) c st out

/-- Loop over `getOutputDerivative`, src/fmi2Functions.c 473-475 and src/fmi3Functions.c
1179-1181. -/
def outputDerivLoop (f : Ctx F → MV F D → Nat → Int → F → MRes F D F) (vr : Ptr Nat)
    (order : Ptr Int) : (n i : Nat) → Comp F D → Status → Ptr F → Res F D (Ptr F)
  | 0, _, c, st, out => .ret (c, st, out)
  | n + 1, i, c, st, out =>
    vr.read i >>- fun r => order.read i >>- fun o => out.read i >>- fun old =>
    c.lift (f c.ctx c.mv r o old) >>- fun (c, s, v) =>
    out.write i v >>- fun out =>
    call st (.ret (c, s, ())) (fun _ => out) fun c st _ => outputDerivLoop f vr order n (i + 1) c st out

end
end Verif

/-! ### Common shapes of `model.c` accessors -/

namespace Verif
section
variable {F D : Type}

/-- `ASSERT_NVALUES(1); values[(*index)++] = v; return OK;`. For example BouncingBall/model.c 43-46; the macro is include/model.h 255-262. -/
def putScalar {α : Type} (ctx : Ctx F) (mv : MV F D) (values : Ptr α) (nValues index : Nat) (v : α) :
    MRes F D (Ptr α × Nat) :=
  assertNValues ctx mv 1 nValues index (values, index) <|
  values.write index v >>- fun p => .ret (mv, .OK, (p, index + 1))

/-- `ASSERT_NVALUES(1); M(var) = values[(*index)++]; ... comp->isDirtyValues = true; return OK;`.
For example VanDerPol/model.c 73-75; the macro is include/model.h 255-262. -/
def takeScalar {α : Type} (ctx : Ctx F) (mv : MV F D) (values : Ptr α) (nValues index : Nat)
    (upd : α → D) : MRes F D Nat :=
  assertNValues ctx mv 1 nValues index index <|
  values.read index >>- fun v =>
  .ret ({ mv with data := upd v, isDirtyValues := true }, .OK, index + 1)

/-- Write the values of `l` to consecutive elements of an array from position `i` on. For example the loops of StateSpace/model.c 95-99, 327-329. -/
def writeN {α : Type} (p : Ptr α) (i : Nat) : List α → Outcome (Ptr α)
  | [] => .ret p
  | a :: l => p.write i a >>- fun p => writeN p (i + 1) l

/-- Read `n` consecutive elements of an array from position `i` on. For example the loops of StateSpace/model.c 169-173, 359-361. -/
def readN {α : Type} (p : Ptr α) (i : Nat) : Nat → Outcome (List α)
  | 0 => .ret []
  | n + 1 => p.read i >>- fun a => readN p (i + 1) n >>- fun l => .ret (a :: l)

/-- `ASSERT_NOT_NULL2(p); ASSERT_SIZE_T(n, expected); ... p[0] = v0; p[1] = v1; ...; return OK;`,
the body of the Model Exchange getters. `mv'` is the instance after the `calculateValues(comp)`
that some getters contain. For example VanDerPol/model.c 106-117. -/
def putVector (ctx : Ctx F) (mv mv' : MV F D) (p : Ptr F) (n : Nat) (vs : List F) :
    MRes F D (Ptr F) :=
  assertNotNull ctx mv p p <|
  assertSize ctx mv n vs.length p <|
  writeN p 0 vs >>- fun p => .ret (mv', .OK, p)

/-- `ASSERT_NOT_NULL2(p); ASSERT_SIZE_T(n, expected); M(..) = p[0]; ...; isDirtyValues = true;`,
the body of `setContinuousStates`. For example VanDerPol/model.c 132-142. -/
def takeVector (ctx : Ctx F) (mv : MV F D) (p : Ptr F) (n expected : Nat) (upd : List F → D) :
    MRes F D (Ptr F) :=
  assertNotNull ctx mv p p <|
  assertSize ctx mv n expected p <|
  readN p 0 expected >>- fun l => .ret ({ mv with data := upd l, isDirtyValues := true }, .OK, p)

end
end Verif
