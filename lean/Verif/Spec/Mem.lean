import Verif.Mem

/-!
# What C75 says about the memory of the FMU

The importer sees instances and FMU states as values (`State.theInstance`, `State.theState`). A program is a sequence of commands on any number of
instances and FMU states (`Exec2`, `Exec3`); the only rule is that the pointer to an instance is not overwritten before the instance
is freed.
-/

namespace Verif
namespace Mem
variable {F D : Type}

/-- Only finitely many addresses are in use. -/
def Few (live : Nat → Bool) : Prop := ∃ n, ∀ a, n ≤ a → live a = false

/-- The C library never runs out of memory for this purpose, whatever is in use. -/
def CLib.Reliable (lib : CLib) (u : Use) : Prop := ∀ k live old, Few live → lib.alloc u k live old ≠ none

/-- The instance of variable `i`. -/
def State.theInstance (s : State F D) (i : Nat) : Option (Comp F D) :=
  match s.inst i with
  | none => none
  | some a => match s.heap a with
    | some (.record c _ _) => some c
    | _ => none

/-- The FMU state of variable `j`. -/
def State.theState (s : State F D) (j : Nat) : Option (Comp F D) :=
  match s.slot j with
  | none => none
  | some a => match s.heap a with
    | some (.record c _ _) => some c
    | _ => none

/-- The importer has freed everything. -/
def State.Released (s : State F D) : Prop := (∀ i, s.inst i = none) ∧ ∀ j, s.slot j = none

/-- Nothing is leaked: every allocated block is an instance or an FMU state that the importer has a pointer to, or the name or the
resource location of such an instance. -/
def State.NoLeak (s : State F D) : Prop :=
  ∀ a, s.heap a ≠ none → (∃ i, s.inst i = some a) ∨ (∃ j, s.slot j = some a) ∨
    ∃ i b c n r, s.inst i = some b ∧ s.heap b = some (.record c n r) ∧ (n = some a ∨ r = some a)

/-- The pointers of the importer are NULL or point to instances and FMU states, and no two of them to the same one. -/
structure State.Valid (s : State F D) : Prop where
  inst : ∀ i, s.inst i ≠ none → s.theInstance i ≠ none
  state : ∀ j, s.slot j ≠ none → s.theState j ≠ none
  insts : ∀ i k a, s.inst i = some a → s.inst k = some a → i = k
  states : ∀ i k a, s.slot i = some a → s.slot k = some a → i = k
  apart : ∀ i j a, s.inst i = some a → s.slot j ≠ some a

/-- No memory is allocated. -/
def State.Empty (s : State F D) : Prop := ∀ a, s.heap a = none

/-- The same instances and FMU states but for the instance of variable `i`. -/
structure Rest (s s' : State F D) (i : Nat) : Prop where
  insts : ∀ k, k ≠ i → s'.theInstance k = s.theInstance k
  states : ∀ j, s'.theState j = s.theState j
  bufs : s'.bufs = s.bufs

/-- After a call on the instance of variable `i`: this instance, the FMU states and buffers as given, the other instances as
before. -/
structure After (s s' : State F D) (i : Nat) (c : Comp F D) (slots : Nat → Option (Comp F D)) (bufs : Nat → Option (Buffer F D)) : Prop where
  inst : s'.theInstance i = some c
  insts : ∀ k, k ≠ i → s'.theInstance k = s.theInstance k
  states : ∀ j, s'.theState j = slots j
  bufs : s'.bufs = bufs
  vars : s'.inst = s.inst

/-- The rule: an instance is stored in a variable that is NULL. -/
def Proper2 (s : State F D) : Cmd2 F → Prop
  | .instantiate i .. => s.inst i = none
  | _ => True

/-- The rule: an instance is stored in a variable that is NULL. -/
def Proper3 (s : State F D) : Cmd3 F → Prop
  | .instantiateModelExchange i .. => s.inst i = none
  | .instantiateCoSimulation i .. => s.inst i = none
  | .instantiateScheduledExecution i .. => s.inst i = none
  | _ => True

variable [Arith F] [HasInf F]

/-- The commands lead from one state to another. -/
inductive Exec2 (lib : CLib) (m : Model F D) (fuel : Nat) : State F D → List (Cmd2 F) → State F D → Prop
  | nil (s) : Exec2 lib m fuel s [] s
  | cons {s s' s'' cmd cmds r} : Proper2 s cmd → step2 lib m fuel s cmd = .ret (s', r) → Exec2 lib m fuel s' cmds s'' →
      Exec2 lib m fuel s (cmd :: cmds) s''

/-- The commands lead from one state to another. -/
inductive Exec3 (lib : CLib) (m : Model F D) (fuel : Nat) : State F D → List (Cmd3 F) → State F D → Prop
  | nil (s) : Exec3 lib m fuel s [] s
  | cons {s s' s'' cmd cmds r} : Proper3 s cmd → step3 lib m fuel s cmd = .ret (s', r) → Exec3 lib m fuel s' cmds s'' →
      Exec3 lib m fuel s (cmd :: cmds) s''

/-- A new instance: it is the instance that `make` describes, unless memory is exhausted. Then there is no instance, or (see the
finding in DESIGN.md) one without its resource location. Nothing else changes. -/
def Created (lib : CLib) (s s' : State F D) (i : Nat) (resource : Ptr UInt8) (make : Ptr UInt8 → Option (Comp F D)) : Prop :=
  Rest s s' i ∧ (s'.theInstance i = make resource ∨ ¬lib.Reliable .instance ∧ s'.theInstance i = none ∨
    ¬lib.Reliable .resource ∧ s'.theInstance i = make none)

/-- The result of a call on an instance in memory, given the result of the same call on values: status, outputs, instance, FMU
states and buffers are the same, except when memory for an FMU state is exhausted: then `fmi2GetFMUstate` logs an error and
changes nothing. -/
inductive Agrees2 (lib : CLib) (s : State F D) (i : Nat) (w : FMI2.World F D) (op : FMI2.Op F) :
    Outcome (FMI2.World F D × Status × FMI2.Out F) → Outcome (State F D × Option (Status × FMI2.Out F)) → Prop
  | ret {w' st o s'} : After s s' i w'.inst w'.slots w'.bufs → Agrees2 lib s i w op (.ret (w', st, o)) (.ret (s', some (st, o)))
  | ub : Agrees2 lib s i w op .ub .ub
  | hang : Agrees2 lib s i w op .hang .hang
  | save {x j s'} : op = .getFMUstate j → ¬lib.Reliable .save →
      After s s' i (w.inst.logError "Failed to allocate memory.") w.slots w.bufs → Agrees2 lib s i w op x (.ret (s', some (.OK, .unit)))

/-- The same for FMI 3.0: when memory is exhausted `fmi3GetFMUState` and `fmi3DeserializeFMUState` return `fmi3Error`. -/
inductive Agrees3 (lib : CLib) (s : State F D) (i : Nat) (w : FMI3.World F D) (op : FMI3.Op F) :
    Outcome (FMI3.World F D × Status × FMI3.Out F) → Outcome (State F D × Option (Status × FMI3.Out F)) → Prop
  | ret {w' st o s'} : After s s' i w'.inst w'.slots w'.bufs → Agrees3 lib s i w op (.ret (w', st, o)) (.ret (s', some (st, o)))
  | ub : Agrees3 lib s i w op .ub .ub
  | hang : Agrees3 lib s i w op .hang .hang
  | save {x j s'} : op = .getFMUState j → ¬lib.Reliable .save →
      After s s' i ((w.inst.logError "Failed to allocate memory.").setState .terminated) w.slots w.bufs →
      Agrees3 lib s i w op x (.ret (s', some (.Error, .unit)))
  | load {x b n j s'} : op = .deserializeFMUState b n j → ¬lib.Reliable .load →
      After s s' i w.inst w.slots w.bufs → Agrees3 lib s i w op x (.ret (s', some (.Error, .unit)))

/-- What a command of FMI 2.0 does, in terms of values. -/
def Does2 (lib : CLib) (m : Model F D) (fuel : Nat) (s : State F D) (r : Outcome (State F D × Option (Status × FMI2.Out F))) :
    Cmd2 F → Prop
  | .instantiate i name typ guid resource functions loggingOn => ∃ s', r = .ret (s', none) ∧
      Created lib s s' i resource fun res => (FMI2.instantiate m name typ guid res functions loggingOn true).1
  | .free i => ∃ s', r = .ret (s', none) ∧ Rest s s' i ∧ s'.inst i = none
  | .call i op => match s.theInstance i with
    | none => r = .ret (s, some (.Error, .unit))
    | some c => Agrees2 lib s i ⟨c, s.theState, s.bufs⟩ op (FMI2.step m fuel ⟨c, s.theState, s.bufs⟩ op) r

/-- What a command of FMI 3.0 does, in terms of values. -/
def Does3 (lib : CLib) (m : Model F D) (fuel : Nat) (s : State F D) (r : Outcome (State F D × Option (Status × FMI3.Out F))) :
    Cmd3 F → Prop
  | .instantiateModelExchange i name token resource loggingOn logger => ∃ s', r = .ret (s', none) ∧
      Created lib s s' i resource fun res => (FMI3.instantiateModelExchange m name token res loggingOn logger true).1
  | .instantiateCoSimulation i name token resource loggingOn ev er logger iu => ∃ s', r = .ret (s', none) ∧
      Created lib s s' i resource fun res => (FMI3.instantiateCoSimulation m name token res loggingOn ev er logger iu true).1
  | .instantiateScheduledExecution i name token resource loggingOn logger clk lock unlock => ∃ s', r = .ret (s', none) ∧
      Created lib s s' i resource fun res =>
        (FMI3.instantiateScheduledExecution m name token res loggingOn logger clk lock unlock true).1
  | .free i => ∃ s', r = .ret (s', none) ∧ Rest s s' i ∧ s'.inst i = none
  | .call i op => match s.theInstance i with
    | none => r = .ret (s, some (.Error, .unit))
    | some c => Agrees3 lib s i ⟨c, s.theState, s.bufs⟩ op (FMI3.step m fuel ⟨c, s.theState, s.bufs⟩ op) r

end Mem
end Verif
