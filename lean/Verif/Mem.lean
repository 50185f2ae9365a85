import Verif.History2
import Verif.History3

/-!
# The memory of the FMU

The rest of the model treats instances and FMU states as values. Here they are blocks of C memory that the FMU allocates and
frees, and that the importer refers to by pointers: src/cosimulation.c 69-142, 269-302, 591-598, and the instance and FMU
state functions of src/fmi2Functions.c and src/fmi3Functions.c. The importer has any number of instances of one FMU, of FMU states
and of byte buffers. The C library decides where blocks are and when memory is exhausted.

Simplifications: the importer does not copy pointers to instances and FMU states (each is in one variable), and sets the variable
of an instance to NULL when it frees it.
-/

namespace Verif
namespace Mem

/-- The contents of an allocated block: a `ModelInstance` (include/model.h 101-160) with its pointers `instanceName` and
`resourceLocation`, a copy of the name, a copy of the resource location, or bytes that were not yet written. -/
inductive Block (F D : Type)
  | record (c : Comp F D) (name resource : Option Nat)
  | name (s : String)
  | path (l : List UInt8)
  | raw

/-- The places where the FMU allocates memory: `calloc` of an instance (src/cosimulation.c 69), `strdup` of the name (77) and of
the resource location (78), `calloc` of a message (288), `realloc` of an FMU state (132), `calloc` of an FMU state
(src/fmi2Functions.c 419, src/fmi3Functions.c 826). -/
inductive Use
  | instance | name | resource | message | save | load
  deriving DecidableEq

/-- The C library: the address that the `k`-th allocation returns (`none`: NULL). `old` is the block that `realloc` replaces.
A new block is not a live one, but `realloc` may return the old address. For the calls in src/cosimulation.c 69, 77, 78, 132, 288. -/
structure CLib where
  alloc : Use → (k : Nat) → (live : Nat → Bool) → (old : Option Nat) → Option Nat
  fresh : ∀ u k live old a, alloc u k live old = some a → live a = false ∨ old = some a

/-- Memory and the variables of the importer: pointers to instances and FMU states (`none` is NULL), byte buffers. `calls` counts
the allocations. The arguments of src/fmi2Functions.c 213-232, 368-425 and src/fmi3Functions.c 254-381, 764-836. -/
structure State (F D : Type) where
  heap : Nat → Option (Block F D)
  calls : Nat
  inst : Nat → Option Nat
  slot : Nat → Option Nat
  bufs : Nat → Option (Buffer F D)

/-- The update of a function at one point. An assignment, for example `*memory = temp`, src/cosimulation.c 139. -/
def upd {α : Type} (f : Nat → α) (i : Nat) (x : α) : Nat → α := fun j => if j = i then x else f j

section
variable {F D : Type}

/-- Nothing is allocated, all pointers are NULL. The situation before the first call of src/fmi2Functions.c 213-232 or src/fmi3Functions.c 254-381. -/
def State.initial (bufs : Nat → Option (Buffer F D)) : State F D := ⟨fun _ => none, 0, fun _ => none, fun _ => none, bufs⟩

/-- The addresses of live blocks. The blocks not yet released in src/cosimulation.c 111-120, 126, 301. -/
def State.live (s : State F D) (a : Nat) : Bool := (s.heap a).isSome

/-- `free(p)`; undefined if the block is not live. src/cosimulation.c 115-119, 126, 301. -/
def free (s : State F D) : Option Nat → Outcome (State F D)
  | none => .ret s
  | some a => if s.live a then .ret { s with heap := upd s.heap a none } else .ub

/-- `calloc` and `strdup`: a block with contents `b`. src/cosimulation.c 69, 77, 78, 288. -/
def malloc (lib : CLib) (u : Use) (s : State F D) (b : Block F D) : Option Nat × State F D :=
  match lib.alloc u s.calls s.live none with
  | none => (none, { s with calls := s.calls + 1 })
  | some a => (some a, { s with heap := upd s.heap a (some b), calls := s.calls + 1 })

/-- `logMessage`, src/cosimulation.c 288-301: the buffer of the message. Printing to NULL is undefined. -/
def message (lib : CLib) (s : State F D) : Outcome (State F D) :=
  match malloc lib .message s .raw with
  | (none, _) => .ub
  | (some a, s) => free s (some a)

/-- `n` messages. `logMessage`, src/cosimulation.c 269-302. -/
def messages (lib : CLib) : Nat → State F D → Outcome (State F D)
  | 0, s => .ret s
  | n + 1, s => message lib s >>- messages lib n

/-- Whether a callback is a log message (all are sent by `logMessage`, src/cosimulation.c 269-302, except those of a refused
instantiation). -/
def isLog {F : Type} : Ev F → Bool
  | .log .. => true
  | _ => false

/-- The number of messages that a call sent, which took the instance from `c` to `c'`. `logMessage`, src/cosimulation.c 269-302. -/
def sent (c c' : Comp F D) : Nat := (c'.mv.trace.drop c.mv.trace.length).countP isLog

/-- The strings that an instance points to are live and unchanged. `instanceName` and `resourceLocation`, src/cosimulation.c 77-78. -/
def State.intact (s : State F D) (c : Comp F D) (n r : Option Nat) : Bool :=
  (match n with
    | none => false
    | some n => match s.heap n with
      | some (.name t) => t == c.instanceName
      | _ => false) &&
  (match r with
    | none => c.ctx.resourceLocation.isNone
    | some r => match s.heap r with
      | some (.path l) => c.ctx.resourceLocation == some l
      | _ => false)

/-- The access to the instance at `a`, `ModelInstance *S = (ModelInstance *)instance`, src/fmi3Functions.c 216,
src/fmi2Functions.c 171. Undefined if there is no instance at `a` or its strings are not there any more; the functions may use them
(src/cosimulation.c 295, Resource/model.c), and the model requires them in every call. -/
def State.access (s : State F D) (a : Nat) : Outcome (Comp F D × Option Nat × Option Nat) :=
  match s.heap a with
  | some (.record c n r) => if s.intact c n r then .ret (c, n, r) else .ub
  | _ => .ub

/-- After a call: the new contents of the instance at `a`, and the buffers of the messages that the call sent. Simplification:
messages are counted at the end of the call. The end of the functions, for example src/fmi3Functions.c 219-221. -/
def State.leave (lib : CLib) (s : State F D) (a : Nat) (c c' : Comp F D) (n r : Option Nat) : Outcome (State F D) :=
  messages lib (sent c c') { s with heap := upd s.heap a (some (.record c' n r)) }

/-- The FMU state that variable `j` points to. The argument of `setFMUState`, src/cosimulation.c 600-602. -/
def State.read (s : State F D) (j : Nat) : Outcome (Option (Comp F D)) :=
  match s.slot j with
  | none => .ret none
  | some p => match s.heap p with
    | some (.record c _ _) => .ret (some c)
    | _ => .ub

/-- `createModelInstance`, src/cosimulation.c 69-109. `make` gives the result for a resource location and for memory that is
or is not available; arguments are refused before anything is allocated (36-67). -/
def create (lib : CLib) (s : State F D) (i : Nat) (resource : Ptr UInt8)
    (make : Ptr UInt8 → Bool → Option (Comp F D) × List (Ev F)) : Outcome (State F D) :=
  match (make resource true).1 with
  | none => .ret { s with inst := upd s.inst i none }
  | some c =>
    match malloc lib .instance s (.record c none none) with
    | (none, s) => .ret { s with inst := upd s.inst i none }
    | (some a, s) =>
      let (n, s) := malloc lib .name s (.name c.instanceName)
      let (r, s) := match resource with
        | none => (none, s)
        | some l => malloc lib .resource s (.path l)
      let c := ((make (if r.isSome then resource else none) true).1).getD c
      let s := { s with heap := upd s.heap a (some (.record c n r)) }
      if n.isNone then
        (if c.ctx.logger then message lib s else .ret s) >>- fun s => .ret { s with inst := upd s.inst i none }
      else .ret { s with inst := upd s.inst i (some a) }

/-- `freeModelInstance`, src/cosimulation.c 111-120, for the variable `i`, which the importer then sets to NULL. -/
def destroy (s : State F D) (i : Nat) : Outcome (State F D) :=
  match s.inst i with
  | none => .ret s
  | some a => match s.heap a with
    | some (.record _ n r) =>
      free s n >>- fun s => free s r >>- fun s => free s (some a) >>- fun s => .ret { s with inst := upd s.inst i none }
    | _ => .ub

/-- `realloc(p, n)` for `n` other than 0; undefined if the block is not live. src/cosimulation.c 132. -/
def realloc (lib : CLib) (u : Use) (s : State F D) (old : Option Nat) : Outcome (Option Nat × State F D) :=
  if old.all s.live then
    match lib.alloc u s.calls s.live old with
    | none => .ret (none, { s with calls := s.calls + 1 })
    | some p =>
      let heap := match old with
        | none => s.heap
        | some q => upd s.heap q none
      .ret (some p, { s with heap := upd heap p (some .raw), calls := s.calls + 1 })
  else .ub

/-- `s_reallocate`, src/cosimulation.c 122-142, for a size other than 0 and the variable `j`. -/
def s_reallocate (lib : CLib) (s : State F D) (c : Comp F D) (j : Nat) : Res F D (State F D) :=
  realloc lib .save s (s.slot j) >>- fun (p, s) =>
  match p with
  | none => .ret (c.logError "Failed to allocate memory.", .Error, s)
  | some p => .ret (c, .OK, { s with slot := upd s.slot j (some p) })

/-- `getFMUState`, src/cosimulation.c 591-598; `n` and `r` are the pointers in the instance. -/
def getFMUState (lib : CLib) (s : State F D) (c : Comp F D) (n r : Option Nat) (j : Nat) : Res F D (State F D) :=
  s_reallocate lib s c j >>- fun (c, st, s) =>
  if st ≠ .OK then .ret (c, st, s) else
  match s.slot j with
  | none => .ub
  | some p => .ret (c, .OK, { s with heap := upd s.heap p (some (.record c n r)) })

/-- `free(*FMUState); *FMUState = NULL;`, src/fmi2Functions.c 382-383, src/fmi3Functions.c 778-779. -/
def freeFMUState (s : State F D) (j : Nat) : Outcome (State F D) :=
  free s (s.slot j) >>- fun s => .ret { s with slot := upd s.slot j none }

/-- `if (*FMUState == NULL) *FMUState = calloc(1, sizeof(ModelInstance));`, src/fmi2Functions.c 418-420,
src/fmi3Functions.c 825-831. -/
def provide (lib : CLib) (s : State F D) (j : Nat) : State F D :=
  match s.slot j with
  | some _ => s
  | none =>
    let (p, s) := malloc lib .load s .raw
    { s with slot := upd s.slot j p }

/-- `memcpy(*FMUState, serializedState, sizeof(ModelInstance))`, src/fmi2Functions.c 422, src/fmi3Functions.c 833. Undefined for NULL
and for a block that is not live. Simplification: the two pointers inside the saved state, which no function uses, are NULL
here. -/
def copyIn (s : State F D) (j : Nat) (c : Comp F D) : Outcome (State F D) :=
  match s.slot j with
  | none => .ub
  | some p => if s.live p then .ret { s with heap := upd s.heap p (some (.record c none none)) } else .ub

end

/-! ### FMI 2.0 -/

section
variable {F D : Type}

/-- `fmi2GetFMUstate`, src/fmi2Functions.c 368-372: the status is ignored. -/
def getFMUstate2 (lib : CLib) (s : State F D) (c : Comp F D) (n r : Option Nat) (j : Nat) : Res F D (State F D) :=
  FMI2.begin FMI2.MASK_FreeInstance "fmi2GetFMUstate" c s fun c =>
  getFMUState lib s c n r j >>- fun (c, _, s) => .ret (c, .OK, s)

/-- `fmi2FreeFMUstate`, src/fmi2Functions.c 380-385. -/
def freeFMUstate2 (s : State F D) (c : Comp F D) (j : Nat) : Res F D (State F D) :=
  FMI2.begin FMI2.MASK_FreeInstance "fmi2FreeFMUstate" c s fun c =>
  freeFMUState s j >>- fun s => .ret (c, .OK, s)

/-- `fmi2DeSerializeFMUstate`, src/fmi2Functions.c 411-425. -/
def deSerializeFMUstate2 (lib : CLib) (m : Model F D) (s : State F D) (c : Comp F D) (b size j : Nat) : Res F D (State F D) :=
  FMI2.begin FMI2.MASK_FreeInstance "fmi2DeSerializeFMUstate" c s fun c =>
  if size ≠ m.sizeOf then .ret (c.invalidArg "%s: Invalid argument %s = %d. Expected %d.", .Error, s)
  else
    Buffer.load m (s.bufs b) >>- fun v => copyIn (provide lib s j) j v >>- fun s => .ret (c, .OK, s)

variable [Arith F] [HasInf F]

/-- A call of a function of FMI 2.0 on the instance of variable `i`. Functions other than those for FMU states only use the
instance. A NULL handle gives `fmi2Error`, src/fmi2Functions.c 170. -/
def call2 (lib : CLib) (m : Model F D) (fuel : Nat) (s : State F D) (i : Nat) (op : FMI2.Op F) :
    Outcome (State F D × Status × FMI2.Out F) :=
  match s.inst i with
  | none => .ret (s, .Error, .unit)
  | some a =>
    s.access a >>- fun (c, n, r) =>
    match op with
    | .getFMUstate j =>
      getFMUstate2 lib s c n r j >>- fun (c', st, s) => s.leave lib a c c' n r >>- fun s => .ret (s, st, .unit)
    | .setFMUstate j =>
      s.read j >>- fun v =>
      FMI2.setFMUstate m c v >>- fun (c', st, _) => s.leave lib a c c' n r >>- fun s => .ret (s, st, .unit)
    | .freeFMUstate j =>
      freeFMUstate2 s c j >>- fun (c', st, s) => s.leave lib a c c' n r >>- fun s => .ret (s, st, .unit)
    | .serializeFMUstate j b size =>
      s.read j >>- fun v =>
      FMI2.serializeFMUstate m c v (s.bufs b) size >>- fun (c', st, v) =>
      { s with bufs := upd s.bufs b v }.leave lib a c c' n r >>- fun s => .ret (s, st, .unit)
    | .deSerializeFMUstate b size j =>
      deSerializeFMUstate2 lib m s c b size j >>- fun (c', st, s) => s.leave lib a c c' n r >>- fun s => .ret (s, st, .unit)
    | op => FMI2.step m fuel (FMI2.World.fresh c) op >>- fun (w, st, o) => s.leave lib a c w.inst n r >>- fun s => .ret (s, st, o)

/-- What the importer can do: `fmi2Instantiate` (src/fmi2Functions.c 213-232), `fmi2FreeInstance` (291-293), other functions. -/
inductive Cmd2 (F : Type)
  | instantiate (i : Nat) (name : Option String) (typ : IType) (guid : Option String) (resource : Ptr UInt8) (functions : Option Bool)
      (loggingOn : Bool)
  | free (i : Nat)
  | call (i : Nat) (op : FMI2.Op F)

/-- One command; the result of a call is its status and outputs. src/fmi2Functions.c 213-724. -/
def step2 (lib : CLib) (m : Model F D) (fuel : Nat) (s : State F D) : Cmd2 F → Outcome (State F D × Option (Status × FMI2.Out F))
  | .instantiate i name typ guid resource functions loggingOn =>
    create lib s i resource (fun r mem => FMI2.instantiate m name typ guid r functions loggingOn mem) >>- fun s => .ret (s, none)
  | .free i => destroy s i >>- fun s => .ret (s, none)
  | .call i op => call2 lib m fuel s i op >>- fun (s, st, o) => .ret (s, some (st, o))

end

/-! ### FMI 3.0 -/

section
variable {F D : Type}

/-- `fmi3GetFMUState`, src/fmi3Functions.c 764-768. -/
def getFMUState3 (lib : CLib) (s : State F D) (c : Comp F D) (n r : Option Nat) (j : Nat) : Res F D (State F D) :=
  FMI3.begin FMI3.MASK_AnyState "fmi3GetFMUState" c s fun c =>
  callLast (getFMUState lib s c n r j) id

/-- `fmi3FreeFMUState`, src/fmi3Functions.c 776-781. -/
def freeFMUState3 (s : State F D) (c : Comp F D) (j : Nat) : Res F D (State F D) :=
  FMI3.begin FMI3.MASK_AnyState "fmi3FreeFMUState" c s fun c =>
  freeFMUState s j >>- fun s => .ret (c, .OK, s)

/-- `fmi3DeserializeFMUState`, src/fmi3Functions.c 815-836. The message about exhausted memory is printed, not logged. -/
def deserializeFMUState3 (lib : CLib) (m : Model F D) (s : State F D) (c : Comp F D) (b size j : Nat) : Res F D (State F D) :=
  FMI3.begin FMI3.MASK_AnyState "fmi3DeserializeFMUState" c s fun c =>
  if size ≠ m.sizeOf then .ret (c.invalidArg "%s: Invalid argument %s = %d. Expected %d.", .Error, s)
  else
    let s := provide lib s j
    if s.slot j = none then .ret (c, .Error, s)
    else Buffer.load m (s.bufs b) >>- fun v => copyIn s j v >>- fun s => .ret (c, .OK, s)

variable [Arith F] [HasInf F]

/-- A call of a function of FMI 3.0 on the instance of variable `i`. Functions other than those for FMU states only use the
instance. A NULL handle gives `fmi3Error`, src/fmi3Functions.c 215. -/
def call3 (lib : CLib) (m : Model F D) (fuel : Nat) (s : State F D) (i : Nat) (op : FMI3.Op F) :
    Outcome (State F D × Status × FMI3.Out F) :=
  match s.inst i with
  | none => .ret (s, .Error, .unit)
  | some a =>
    s.access a >>- fun (c, n, r) =>
    match op with
    | .getFMUState j =>
      getFMUState3 lib s c n r j >>- fun (c', st, s) => s.leave lib a c c' n r >>- fun s => .ret (s, st, .unit)
    | .setFMUState j =>
      s.read j >>- fun v =>
      FMI3.setFMUState m c v >>- fun (c', st, _) => s.leave lib a c c' n r >>- fun s => .ret (s, st, .unit)
    | .freeFMUState j =>
      freeFMUState3 s c j >>- fun (c', st, s) => s.leave lib a c c' n r >>- fun s => .ret (s, st, .unit)
    | .serializeFMUState j b size =>
      s.read j >>- fun v =>
      FMI3.serializeFMUState m c v (s.bufs b) size >>- fun (c', st, v) =>
      { s with bufs := upd s.bufs b v }.leave lib a c c' n r >>- fun s => .ret (s, st, .unit)
    | .deserializeFMUState b size j =>
      deserializeFMUState3 lib m s c b size j >>- fun (c', st, s) => s.leave lib a c c' n r >>- fun s => .ret (s, st, .unit)
    | op => FMI3.step m fuel (FMI3.World.fresh c) op >>- fun (w, st, o) => s.leave lib a c w.inst n r >>- fun s => .ret (s, st, o)

/-- What the importer can do: the three functions for instantiation (src/fmi3Functions.c 254-381), `fmi3FreeInstance` (383-385),
other functions. -/
inductive Cmd3 (F : Type)
  | instantiateModelExchange (i : Nat) (name token : Option String) (resource : Ptr UInt8) (loggingOn logger : Bool)
  | instantiateCoSimulation (i : Nat) (name token : Option String) (resource : Ptr UInt8)
      (loggingOn eventModeUsed earlyReturnAllowed logger iu : Bool)
  | instantiateScheduledExecution (i : Nat) (name token : Option String) (resource : Ptr UInt8)
      (loggingOn logger clockUpdate lock unlock : Bool)
  | free (i : Nat)
  | call (i : Nat) (op : FMI3.Op F)

/-- One command; the result of a call is its status and outputs. src/fmi3Functions.c 245-1294. -/
def step3 (lib : CLib) (m : Model F D) (fuel : Nat) (s : State F D) : Cmd3 F → Outcome (State F D × Option (Status × FMI3.Out F))
  | .instantiateModelExchange i name token resource loggingOn logger =>
    create lib s i resource (fun r mem => FMI3.instantiateModelExchange m name token r loggingOn logger mem) >>- fun s => .ret (s, none)
  | .instantiateCoSimulation i name token resource loggingOn ev er logger iu =>
    create lib s i resource (fun r mem => FMI3.instantiateCoSimulation m name token r loggingOn ev er logger iu mem) >>- fun s =>
      .ret (s, none)
  | .instantiateScheduledExecution i name token resource loggingOn logger clk lock unlock =>
    create lib s i resource (fun r mem => FMI3.instantiateScheduledExecution m name token r loggingOn logger clk lock unlock mem) >>-
      fun s => .ret (s, none)
  | .free i => destroy s i >>- fun s => .ret (s, none)
  | .call i op => call3 lib m fuel s i op >>- fun (s, st, o) => .ret (s, some (st, o))

end
end Mem
end Verif
