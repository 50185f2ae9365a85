import Verif.Importer.Synchronous
import Verif.XRat

/-! # Specification: the schedule of examples/scs_synchronous.c, as in the table at the top of Clocks/model.c -/

namespace Verif.Importer.Sync

/-- inClock2 ticks in the seconds 0, 1, 8, 9, 16, 17, … -/
def Second (s : Nat) : Prop := s % 8 = 0 ∨ s % 8 = 1

instance (s : Nat) : Decidable (Second s) := inferInstanceAs (Decidable (_ ∨ _))

/-- How often a clock has ticked in the seconds `0, …, t`. -/
def ticked (active : Nat → Prop) [DecidablePred active] (t : Nat) : Nat := (List.range (t + 1)).countP fun s => decide (active s)

/-- The row for the second `t`: inClock1 ticks in every second, inClock2 as above, inClock3 in the second 4 only; the last value is the number
of all ticks. -/
def expectedRow (t : Nat) : CoSim.Row XRat (FMI3.Out XRat) :=
  let n2 := ticked Second t
  let n3 := ticked (· = 4) t
  ⟨.fin t, [.values .int32 (some ([t + 1, n2, n3, t + 1 + n2 + n3] : List Int))]⟩

end Verif.Importer.Sync
