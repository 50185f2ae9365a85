import Verif.Spec.Observe
import Verif.Spec.Held

/-!
# Specification: what the Clocks FMU computes

`Counts` is what an importer can tell about an instance of Clocks from the calls it has made, and
`Counts.after` how a successful call changes it.
-/

namespace Verif
namespace Clocks
variable {F : Type} [Arith F]

/-- What an importer knows about an instance of Clocks. -/
structure Counts where
  /-- how often `inClock1`, `inClock2` and `inClock3` have been activated -/
  one : Nat
  two : Nat
  three : Nat
  /-- `outClock` has ticked and the tick has not been read yet -/
  tick : Bool
  /-- the interval of `inClock3`: `none` if it is not yet known, else whether it is new -/
  news : Option Bool
  /-- the value of `input2` -/
  input : Int
  /-- the value of `result2` -/
  result : Int
  deriving DecidableEq, Repr

/-- All activations. -/
def Counts.total (k : Counts) : Nat := k.one + k.two + k.three

/-- A new instance. -/
def Counts.start : Counts := ⟨0, 0, 0, false, none, 0, 0⟩

/-- `outClock` ticks when the number of activations has become a multiple of five. A tick that has not
been read by then is lost. -/
def Counts.ticked (k : Counts) : Counts := { k with tick := decide (k.total % 5 = 0) }

/-- The activation of a clock. The activation of `inClock1` in the second that begins at 4 announces the
interval of `inClock3`. The activation of `inClock2` adds the input to the result. -/
def Counts.activate (k : Counts) (clock : Nat) (t : F) : Counts :=
  if clock = 1001 then
    { k with one := k.one + 1, news := if Arith.toInt t = some 4 then some true else k.news }.ticked
  else if clock = 1002 then
    { k with two := k.two + 1, result := k.result + k.input, input := 0 }.ticked
  else { k with three := k.three + 1 }.ticked

/-- The effect of a successful call. -/
def Counts.after (k : Counts) : FMI3.Op F → Counts
  | .activateModelPartition clock t => k.activate clock t
  | .getClock _ n _ => if n = 0 then k else { k with tick := false }
  | .getIntervalDecimal _ n _ _ => if n = 0 then k else { k with news := k.news.map fun _ => false }
  | .set t vr n v nv => { k with
      input := ((FMI3.Op.set t vr n v nv).assignments.foldl (assign .int32 2006) k.input : Int) }
  | _ => k

/-- What the importer remembers after a successful call, including the states it has saved. -/
def remember : Mem Counts → FMI3.Op F → Mem Counts := FMI3.memAfter .start Counts.after

/-- The `fmi3IntervalQualifier` that tells about the interval of `inClock3`: not yet known, unchanged,
changed. -/
def Counts.qualifier (k : Counts) : Int :=
  match k.news with
  | none => 0
  | some false => 1
  | some true => 2

end Clocks
end Verif
