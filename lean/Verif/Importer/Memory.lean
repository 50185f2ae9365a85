import Verif.Basic
import Verif.Core

/-!
# Importer: `FMICalloc`, `FMIRealloc`, `FMIFree`, src/FMI.c 33-90

The heap maps addresses to the bytes of live blocks. Pointer variables of the caller are numbered.
The C library's allocator is a parameter that may fail at any call and may choose any address that
is not in use.
-/

namespace Verif.Importer.Memory
open Verif

/-- Live blocks. The blocks of `calloc` and `realloc`, src/FMI.c 45, 71. -/
abbrev Heap := Nat → Option (List UInt8)

/-- Heap, pointer variables (`none` is NULL), and the number of allocation calls so far.
The pointer variables are what the argument `memory` of src/FMI.c 33, 55, 84 points to. -/
structure State where
  heap : Heap
  var : Nat → Option Nat
  calls : Nat

/-- All pointer variables are NULL and nothing is allocated. The situation before the first call of src/FMI.c 33-90. -/
def State.initial : State := ⟨fun _ => none, fun _ => none, 0⟩

/-- The C library: the address that the k-th `calloc` or `realloc` for `n` bytes returns (`none`:
NULL) and the bytes beyond the old contents after `realloc`. A new block never overlaps a live
one; `realloc` (whose old block is `old`) may return the old address. For the calls in src/FMI.c 45, 71. -/
structure CLib where
  alloc : (calls : Nat) → Heap → (old : Option Nat) → (n : Nat) → Option Nat
  fill : (calls : Nat) → Nat → UInt8
  fresh : ∀ k h old n a, alloc k h old n = some a → h a = none ∨ old = some a

/-- A function update. An assignment, for example `*memory = NULL`, src/FMI.c 88. -/
def update {α : Type} (f : Nat → α) (i : Nat) (x : α) : Nat → α := fun j => if j = i then x else f j

/-- `free(p)`; freeing a block that is not live is undefined behaviour. src/FMI.c 65, 87. -/
def free (s : State) : Option Nat → Outcome State
  | none => .ret s
  | some a => match s.heap a with
    | none => .ub
    | some _ => .ret { s with heap := update s.heap a none }

/-- `calloc(count, size)`. src/FMI.c 45. -/
def calloc (c : CLib) (s : State) (n : Nat) : Option Nat × State :=
  match c.alloc s.calls s.heap none n with
  | none => (none, { s with calls := s.calls + 1 })
  | some a => (some a, { s with heap := update s.heap a (some (List.replicate n 0)),
                                calls := s.calls + 1 })

/-- `realloc(p, n)` for `n` not 0. src/FMI.c 71. -/
def realloc (c : CLib) (s : State) (p : Option Nat) (n : Nat) : Outcome (Option Nat × State) :=
  match p with
  | none => match c.alloc s.calls s.heap none n with
    | none => .ret (none, { s with calls := s.calls + 1 })
    | some a => .ret (some a, { s with
        heap := update s.heap a (some ((List.range n).map (c.fill s.calls))),
        calls := s.calls + 1 })
  | some b => match s.heap b with
    | none => .ub
    | some l => match c.alloc s.calls s.heap (some b) n with
      | none => .ret (none, { s with calls := s.calls + 1 })
      | some a => .ret (some a, { s with
          heap := update (update s.heap b none) a
            (some (l.take n ++ (List.range (n - l.length)).map (c.fill s.calls))),
          calls := s.calls + 1 })

/-- `FMICalloc(memory, count, size)`, src/FMI.c 33-53; `memory` is NULL or the address of a pointer
variable. -/
def FMICalloc (c : CLib) (s : State) (memory : Option Nat) (count size : Nat) :
    Outcome (Status × State) :=
  match memory with
  | none => .ret (.Error, s)
  | some v =>
    if count = 0 ∨ size = 0 then .ret (.OK, { s with var := update s.var v none })
    else
      match calloc c s (count * size) with
      | (none, s) => .ret (.Error, { s with var := update s.var v none })
      | (some a, s) => .ret (.OK, { s with var := update s.var v (some a) })

/-- `FMIRealloc(memory, size)`, src/FMI.c 55-82. -/
def FMIRealloc (c : CLib) (s : State) (memory : Option Nat) (size : Nat) :
    Outcome (Status × State) :=
  match memory with
  | none => .ret (.Error, s)
  | some v =>
    if size = 0 then
      if s.var v ≠ none then
        free s (s.var v) >>- fun s => .ret (.OK, { s with var := update s.var v none })
      else .ret (.OK, s)
    else
      realloc c s (s.var v) size >>- fun (temp, s) =>
      if temp = none then .ret (.Error, s)
      else .ret (.OK, { s with var := update s.var v temp })

/-- `FMIFree(memory)`, src/FMI.c 84-90. -/
def FMIFree (s : State) (memory : Option Nat) : Outcome State :=
  match memory with
  | none => .ub
  | some v =>
    if s.var v ≠ none then
      free s (s.var v) >>- fun s => .ret { s with var := update s.var v none }
    else .ret s

/-- A call of one of the three functions. src/FMI.c 33-90. -/
inductive Op
  | calloc (memory : Option Nat) (count size : Nat)
  | realloc (memory : Option Nat) (size : Nat)
  | free (v : Nat)
  deriving DecidableEq, Repr

/-- One call; `FMIFree` returns no status. src/FMI.c 33-90. -/
def step (c : CLib) (s : State) : Op → Outcome (Option Status × State)
  | .calloc m count size => FMICalloc c s m count size >>- fun (st, s) => .ret (some st, s)
  | .realloc m size => FMIRealloc c s m size >>- fun (st, s) => .ret (some st, s)
  | .free v => FMIFree s (some v) >>- fun s => .ret (none, s)

/-- A history of calls. Any sequence of calls of src/FMI.c 33-90. -/
def run (c : CLib) : State → List Op → Outcome State
  | s, [] => .ret s
  | s, op :: ops => step c s op >>- fun (_, s) => run c s ops

end Verif.Importer.Memory
