import Verif.Lemmas.Synchronous
import Verif.Examples

/-!
# C68: the program for Scheduled Execution follows the schedule of the Clocks FMU
-/

namespace Verif
open Importer.CoSim Importer.Sync

/-- **C68**: the program examples/scs_synchronous.c, run for any number of seconds (as long as the tick counters cannot overflow), returns
`fmi3OK`, and the row for every second holds exactly the numbers of ticks of the schedule: inClock1 in every second, inClock2 in the seconds 0, 1, 8, 9,
16, …, and inClock3, the countdown clock that the FMU announces by its callback, once, in the second 4. -/
theorem C68 {fuel stop n : Nat} (hb : 3 * stop < 2 ^ 31) (hn : stop < n) :
    synchronous Clocks.model fuel stop n = .ret (.OK, (List.range stop).map expectedRow) := by
  unfold synchronous
  have : ∃ c l, FMI3.instantiateScheduledExecution (Clocks.model : Model XRat _) (some "instance1") (some (Clocks.model : Model XRat _).token) none false true true false false true = (some c, l) ∧
      ∃ w vs, AllOK (FMI3.step Clocks.model fuel) (.fresh c) [.enterInitializationMode (Arith.lit 0) false (Arith.lit 0), .exitInitializationMode] w vs ∧ Acts w 0 0 0 :=
    ⟨_, _, rfl, _, _, .cons rfl (.cons rfl .nil), rfl, rfl, rfl, rfl, ⟨rfl, rfl, rfl, rfl, rfl, rfl⟩, by decide⟩
  obtain ⟨c, l, hc, w, vs, ha, h⟩ := this
  rw [hc]
  simp only []
  rw [CALLS_ok (api := api3 Clocks.model fuel (Arith.lit 0)) ha]
  exact syncLoop_ok hb (t := 0) (Nat.zero_le _) (by omega) (by decide) h

/-- The table at the top of Clocks/model.c: the ten seconds of the program. -/
example : synchronous (Clocks.model : Model XRat _) 0 10 11 = .ret (.OK, [
    ⟨.fin 0, [.values .int32 (some ([1, 1, 0, 2] : List Int))]⟩, ⟨.fin 1, [.values .int32 (some ([2, 2, 0, 4] : List Int))]⟩,
    ⟨.fin 2, [.values .int32 (some ([3, 2, 0, 5] : List Int))]⟩, ⟨.fin 3, [.values .int32 (some ([4, 2, 0, 6] : List Int))]⟩,
    ⟨.fin 4, [.values .int32 (some ([5, 2, 1, 8] : List Int))]⟩, ⟨.fin 5, [.values .int32 (some ([6, 2, 1, 9] : List Int))]⟩,
    ⟨.fin 6, [.values .int32 (some ([7, 2, 1, 10] : List Int))]⟩, ⟨.fin 7, [.values .int32 (some ([8, 2, 1, 11] : List Int))]⟩,
    ⟨.fin 8, [.values .int32 (some ([9, 3, 1, 13] : List Int))]⟩, ⟨.fin 9, [.values .int32 (some ([10, 4, 1, 15] : List Int))]⟩]) :=
  (C68 (stop := 10) (by decide) (by decide)).trans rfl

end Verif
