/-!
# Basic vocabulary of the model

Status codes, interface types, modes, outcomes (including undefined behaviour),
C arrays, data types and the arithmetic interface.
-/

namespace Verif

/-- `Status`, include/model.h 71-78. The C enum is ordered `OK < Warning < Discard <
Error < Fatal < Pending`; see `Status.rank`. -/
inductive Status
  | OK | Warning | Discard | Error | Fatal | Pending
  deriving DecidableEq, Repr

/-- Numeric value of the C enum `Status`, include/model.h 71-78. -/
def Status.rank : Status → Nat
  | .OK => 0 | .Warning => 1 | .Discard => 2 | .Error => 3 | .Fatal => 4 | .Pending => 5

/-- `InterfaceType`, include/model.h 65-69. -/
inductive IType
  | modelExchange | coSimulation | scheduledExecution
  deriving DecidableEq, Repr

/-- `ModelState`. Union of the FMI 2 enum (include/model.h 28-44) and the FMI 3 enum
(include/model.h 48-61). Each build only uses the constructors of its own enum. -/
inductive Mode
  | startAndEnd | instantiated | initializationMode | eventMode | continuousTimeMode
  | terminated
  -- FMI 2 only
  | stepComplete | stepInProgress | stepFailed | stepCanceled
  -- FMI 3 only
  | configurationMode | stepMode | clockActivationMode | stepDiscarded
  | reconfigurationMode | intermediateUpdateMode
  deriving DecidableEq, Repr

/-- Enum values of the FMI 2 `ModelState`, include/model.h 28-44. Modes that do not exist
in FMI 2 get no bit. -/
def Mode.bit2 : Mode → Nat
  | .startAndEnd => 1 <<< 0
  | .instantiated => 1 <<< 1
  | .initializationMode => 1 <<< 2
  | .eventMode => 1 <<< 3
  | .continuousTimeMode => 1 <<< 4
  | .stepComplete => 1 <<< 5
  | .stepInProgress => 1 <<< 6
  | .stepFailed => 1 <<< 7
  | .stepCanceled => 1 <<< 8
  | .terminated => 1 <<< 9
  | _ => 0

/-- Enum values of the FMI 3 `ModelState`, include/model.h 48-61. Modes that do not exist
in FMI 3 get no bit. -/
def Mode.bit3 : Mode → Nat
  | .startAndEnd => 1 <<< 0
  | .configurationMode => 1 <<< 1
  | .instantiated => 1 <<< 2
  | .initializationMode => 1 <<< 3
  | .eventMode => 1 <<< 4
  | .continuousTimeMode => 1 <<< 5
  | .stepMode => 1 <<< 6
  | .clockActivationMode => 1 <<< 7
  | .stepDiscarded => 1 <<< 8
  | .reconfigurationMode => 1 <<< 9
  | .intermediateUpdateMode => 1 <<< 10
  | .terminated => 1 <<< 11
  | _ => 0

/-- Result of executing a piece of C code: it returned, it executed undefined behaviour,
or the fuel given to an unbounded loop was used up before it ended.
This is the semantics of C itself, for all functions modelled, for example the unbounded loop src/fmi3Functions.c 1231-1273. -/
inductive Outcome (α : Type) where
  | ret (a : α)
  | ub
  | hang
  deriving DecidableEq, Repr

/-- Sequencing of C statements. Semantics of C, for all functions modelled, for example src/fmi3Functions.c 407-432. -/
def Outcome.bind {α β : Type} : Outcome α → (α → Outcome β) → Outcome β
  | .ret a, f => f a
  | .ub, _ => .ub
  | .hang, _ => .hang

@[inherit_doc] infixl:55 " >>- " => Outcome.bind

@[simp] theorem Outcome.ret_bind {α β : Type} (a : α) (f : α → Outcome β) :
    (Outcome.ret a >>- f) = f a := rfl
@[simp] theorem Outcome.ub_bind {α β : Type} (f : α → Outcome β) :
    ((Outcome.ub : Outcome α) >>- f) = .ub := rfl
@[simp] theorem Outcome.hang_bind {α β : Type} (f : α → Outcome β) :
    ((Outcome.hang : Outcome α) >>- f) = .hang := rfl

theorem Outcome.bind_eq_ret {α β : Type} {x : Outcome α} {f : α → Outcome β} {b : β} :
    (x >>- f) = .ret b ↔ ∃ a, x = .ret a ∧ f a = .ret b := by
  cases x <;> simp

theorem Outcome.bind_assoc {α β γ : Type} (x : Outcome α) (f : α → Outcome β)
    (g : β → Outcome γ) : (x >>- f >>- g) = (x >>- fun a => f a >>- g) := by
  cases x <;> rfl

/-- A C array argument: `none` is the NULL pointer, `some l` points to exactly the elements
of `l`. For example `valueReferences` and `values` in src/fmi3Functions.c 49-66. -/
abbrev Ptr (α : Type) := Option (List α)

/-- `p[i]` as an rvalue. NULL and out-of-bounds accesses are undefined behaviour. For example src/fmi3Functions.c 60, `valueReferences[i]`. -/
def Ptr.read {α : Type} (p : Ptr α) (i : Nat) : Outcome α :=
  match p with
  | none => .ub
  | some l => match l[i]? with
    | some a => .ret a
    | none => .ub

/-- `p[i] = a`. NULL and out-of-bounds accesses are undefined behaviour. For example BouncingBall/model.c 45, `values[(*index)++] = M(h)`. -/
def Ptr.write {α : Type} (p : Ptr α) (i : Nat) (a : α) : Outcome (Ptr α) :=
  match p with
  | none => .ub
  | some l => if i < l.length then .ret (some (l.set i a)) else .ub

/-- The operations the C code performs on `double`. No laws are assumed.
`lit q` is the `double` that a literal (or a converted integer) with the exact value `q`
denotes; `toInt` is the conversion `(int)x`, undefined behaviour (`none`) if the truncated
value does not fit. Operations of C; for example src/cosimulation.c 173-190, 664-720 use all but `toInt`, and Clocks/model.c 35 uses `toInt`. -/
class Arith (F : Type) where
  lit : Rat → F
  add : F → F → F
  sub : F → F → F
  mul : F → F → F
  neg : F → F
  lt : F → F → Bool
  le : F → F → Bool
  toInt : F → Option Int

/-- The macro `INFINITY` of math.h, used as the stop time when none is defined. See src/fmi2Functions.c 243 and src/fmi3Functions.c 399. -/
class HasInf (F : Type) where
  inf : F

infixl:65 " +. " => Arith.add
infixl:65 " -. " => Arith.sub
infixl:70 " *. " => Arith.mul
infix:50 " <. " => Arith.lt
infix:50 " <=. " => Arith.le

/-- The thirteen data types of the get/set functions of the models, include/model.h 182-208
(Clock has its own functions). -/
inductive VType
  | float32 | float64 | int8 | uint8 | int16 | uint16 | int32 | uint32 | int64 | uint64
  | boolean | string | binary
  deriving DecidableEq, Repr

/-- A binary argument: the announced size and the pointer to the bytes. The C code passes
two parallel arrays (`sizes`, `values`); the model passes one array of pairs. See `getBinary` and `setBinary`, include/model.h 194, 208. -/
structure CBinary where
  size : Nat
  data : Ptr UInt8
  deriving DecidableEq, Repr

/-- Values of each data type. Integers are mathematical integers (they are only copied and
compared); `float` values are bit patterns (they are only copied); strings are possibly
NULL pointers to the bytes before the terminator. The types of the parameters `values`, include/model.h 182-208. -/
@[reducible] def VType.Val (F : Type) : VType → Type
  | .float32 => UInt32
  | .float64 => F
  | .boolean => Bool
  | .string => Ptr UInt8
  | .binary => CBinary
  | _ => Int

/-- Observable callback invocations of an FMU instance. The types of the callbacks are in include/model.h 80-99. -/
inductive Ev (F : Type)
  /-- logger callback with status, category and (format of the) message -/
  | log (status : Status) (category : String) (message : String)
  /-- intermediate update callback at the given time -/
  | intermediateUpdate (time : F)
  /-- clock update callback -/
  | clockUpdate
  /-- lockPreemption callback -/
  | lock
  /-- unlockPreemption callback -/
  | unlock
  deriving DecidableEq, Repr

end Verif
