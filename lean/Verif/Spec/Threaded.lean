import Verif.Importer.Threaded
import Verif.Spec.Synchronous

/-! # Specification: the program examples/scs_threaded.c under a schedule (C77) -/

namespace Verif.Importer.Threads
open Verif Importer.Sync Clocks

/-- The FMU Clocks in exact arithmetic. -/
abbrev TProg := Prog XRat (Clocks.Data XRat)

/-- How often the model partition of a clock has been activated, and has returned `fmi3OK`. -/
def activations (s : TProg) (p : Part) : Nat := s.calls.count (p, .activate, .OK)

/-- All threads have ended. -/
def Idle (s : TProg) : Prop := ∀ th ∈ s.threads, th.todo = []

/-- A reader of the FMU sees `a`, `b` and `c` ticks of the three input clocks, and their sum as the number of all ticks. -/
def Shows (s : TProg) (a b c : Nat) : Prop := ∀ fuel, ∃ w',
  FMI3.step Clocks.model fuel s.w (.get .int32 (some [2001, 2002, 2003, 2004]) 4 (some ([0, 0, 0, 0] : List Int)) 4) =
    .ret (w', .OK, .values .int32 (some ([a, b, c, a + b + c] : List Int)))

/-- How often a clock ticks in the seconds before `t`. -/
def ticksBefore (active : Nat → Prop) [DecidablePred active] (t : Nat) : Nat := (List.range t).countP fun s => decide (active s)

/-- Whenever the main program begins a new second, all threads have ended. (The main program makes three steps in every second.) -/
def Paced (fuel stop : Nat) (s₀ : TProg) (turns : List Turn) : Prop :=
  ∀ done rest, turns = done ++ Turn.main :: rest → done.count .main % 3 = 0 → ∀ s, s₀.run Clocks.model fuel stop done = .ret s → Idle s

end Verif.Importer.Threads
