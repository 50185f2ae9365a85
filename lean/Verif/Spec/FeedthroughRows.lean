import Verif.Importer.CoSim
import Verif.XRat

/-!
# Specification: what the programs for Feedthrough are meant to record

The signals that the programs feed into the inputs, as functions of the time, and the row that shows the inputs at the outputs.
-/

namespace Verif.FeedthroughRows
open Verif

/-- The continuous signal: 0 up to the time 0.5, where it jumps to 2, falling to 1 at the time 1, and 1 from then on. At the time 0.5 it has the value
before the jump or, after the event, the value after it. -/
def signal (afterEvent : Bool) (t : Rat) : Rat :=
  if t < 1 / 2 then 0 else if t = 1 / 2 then (if afterEvent then 2 else 0) else if t < 1 then 3 - 2 * t else 1

/-- The discrete signals: nothing is set yet, or the value set before the time 1, or the value set from then on. -/
inductive Phase
  | start
  | before
  | after
  deriving DecidableEq, Repr

/-- The phase of the signals that are set for a time. -/
def phase (t : Rat) : Phase := if t < 1 then .before else .after

/-- The value of a variable in a phase. -/
def Phase.pick {α : Type} (start before after : α) : Phase → α
  | .start => start
  | .before => before
  | .after => after

/-- The row with the continuous signal `x` (`x32` are the bits of the 32-bit float) and the discrete signals of a phase, FMI 3.0. -/
def row3 {F : Type} [Arith F] (x32 : UInt32) (x : F) (p : Phase) : List (FMI3.Out F) := [
  .values .float32 (some [x32, (p.pick 0 0 0x3f800000 : UInt32)]),
  .values .float64 (some [x, p.pick (Arith.lit 0) (Arith.lit 0) (Arith.lit 1)]),
  .values .int8 (some [(p.pick 0 (-128) 127 : Int)]),
  .values .uint8 (some [(p.pick 0 0 255 : Int)]),
  .values .int16 (some [(p.pick 0 (-32768) 32767 : Int)]),
  .values .uint16 (some [(p.pick 0 0 65535 : Int)]),
  .values .int32 (some [(p.pick 0 (-2147483648) 2147483647 : Int)]),
  .values .uint32 (some [(p.pick 0 0 4294967295 : Int)]),
  .values .int64 (some [(p.pick 0 (-9223372036854775808) 9223372036854775807 : Int), (p.pick 1 1 2 : Int)]),
  .values .uint64 (some [(p.pick 0 0 18446744073709551615 : Int)]),
  .values .boolean (some [p.pick false false true]),
  .values .string (some [some (p.pick "Set me!" "FMI is awesome!" "FMI is still awesome!").toUTF8.toList]),
  .values .binary (some [⟨3, some (p.pick "foo" "foo" "bar").toUTF8.toList⟩])]

/-- The row with the continuous signal `x`, the discrete floating point signal `y` and the other discrete signals of a phase, FMI 2.0. The enumeration is
not set by the program. -/
def row2 {F : Type} (x y : F) (p : Phase) : List (FMI2.Out F) := [
  .reals (some [x, y]),
  .ints (some [p.pick 0 (-2147483648) 2147483647, 1]),
  .ints (some [p.pick 0 0 1]),
  .strs (some [some (p.pick "Set me!" "FMI is awesome!" "FMI is still awesome!").toUTF8.toList])]

/-- The times at which an input changes discontinuously. -/
def changesAt (t : Rat) : Bool := decide (t = 1 / 2) || decide (t = 1) || decide (t = 3 / 2)

/-- The phase of the discrete signals at the step `k` of the Model Exchange programs, before an event: they are set only at the times of events that are
hit exactly. -/
def held (h : Rat) (k : Nat) : Phase := if (List.range k).any fun (i : Nat) => decide (i * h = 1) || decide (i * h = 3 / 2) then .after else .before

/-- The rows of the Model Exchange programs: one for every step, and a second one after an event. `discrete k` is the phase at the step `k` before an event. -/
def rowsME {V : Type} (row : Rat → Phase → List V) (h : Rat) (discrete : Nat → Phase) (N : Nat) : List (Importer.CoSim.Row XRat V) :=
  (List.range (N + 1)).flatMap fun (k : Nat) =>
    ⟨.fin (k * h), row (signal false (k * h)) (discrete k)⟩ ::
      if changesAt (k * h) then [⟨.fin (k * h), row (signal true (k * h)) (phase (k * h))⟩] else []

end Verif.FeedthroughRows
