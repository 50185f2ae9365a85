import Verif.Spec.Reach

/-!
# Specification: the FMU-state variables and buffers a call mentions, and what a history shows
-/

namespace Verif
variable {F : Type}

/-- The FMU-state variables a call writes. -/
def FMI2.Op.slotsWritten : FMI2.Op F → List Nat
  | .getFMUstate i => [i]
  | .freeFMUstate i => [i]
  | .deSerializeFMUstate _ _ i => [i]
  | _ => []

/-- The FMU-state variables a call reads or writes. -/
def FMI2.Op.slots : FMI2.Op F → List Nat
  | .getFMUstate i => [i]
  | .freeFMUstate i => [i]
  | .deSerializeFMUstate _ _ i => [i]
  | .setFMUstate i => [i]
  | .serializeFMUstate i _ _ => [i]
  | _ => []

/-- The byte buffers a call writes. -/
def FMI2.Op.bufsWritten : FMI2.Op F → List Nat
  | .serializeFMUstate _ b _ => [b]
  | _ => []

/-- The byte buffers a call reads or writes. -/
def FMI2.Op.bufs : FMI2.Op F → List Nat
  | .serializeFMUstate _ b _ => [b]
  | .deSerializeFMUstate b _ _ => [b]
  | _ => []

/-- The FMU-state variables a call writes. -/
def FMI3.Op.slotsWritten : FMI3.Op F → List Nat
  | .getFMUState i => [i]
  | .freeFMUState i => [i]
  | .deserializeFMUState _ _ i => [i]
  | _ => []

/-- The FMU-state variables a call reads or writes. -/
def FMI3.Op.slots : FMI3.Op F → List Nat
  | .getFMUState i => [i]
  | .freeFMUState i => [i]
  | .deserializeFMUState _ _ i => [i]
  | .setFMUState i => [i]
  | .serializeFMUState i _ _ => [i]
  | _ => []

/-- The byte buffers a call writes. -/
def FMI3.Op.bufsWritten : FMI3.Op F → List Nat
  | .serializeFMUState _ b _ => [b]
  | _ => []

/-- The byte buffers a call reads or writes. -/
def FMI3.Op.bufs : FMI3.Op F → List Nat
  | .serializeFMUState _ b _ => [b]
  | .deserializeFMUState b _ _ => [b]
  | _ => []

/-- What the importer sees of a history: the statuses and output arguments of all calls, or that
the history runs into undefined behaviour or does not return. -/
def Outcome.shown {W α : Type} : Outcome (W × α) → Outcome α
  | .ret (_, a) => .ret a
  | .ub => .ub
  | .hang => .hang

/-- The calls of `later` do not mention FMU-state variables or buffers that a call of `earlier`
writes. -/
def FMI2.Separate (earlier later : List (FMI2.Op F)) : Prop :=
  ∀ a ∈ earlier, ∀ b ∈ later, (∀ i ∈ a.slotsWritten, i ∉ b.slots) ∧ ∀ i ∈ a.bufsWritten, i ∉ b.bufs

/-- The calls of `later` do not mention FMU-state variables or buffers that a call of `earlier`
writes. -/
def FMI3.Separate (earlier later : List (FMI3.Op F)) : Prop :=
  ∀ a ∈ earlier, ∀ b ∈ later, (∀ i ∈ a.slotsWritten, i ∉ b.slots) ∧ ∀ i ∈ a.bufsWritten, i ∉ b.bufs

end Verif
