import Verif.Importer.CoSim
import Verif.Models.Clocks

/-!
# Importer: the program for Scheduled Execution, examples/scs_synchronous.c, with examples/Clocks.c

As in `Importer/CoSim.lean`, `setUp`, the format of the output file and releasing the instance are not modelled, the wrapper functions `FMI3*` are
replaced by the functions of the FMU, and a row is written only if all values could be read.
-/

namespace Verif.Importer.Sync
open Verif Importer.CoSim

variable {F D : Type} [Arith F] [HasInf F]

/-- `Ev.clockUpdate`. The call of the callback, Clocks/model.c 43, 76, 115. -/
def isClockUpdate : Ev F → Bool
  | .clockUpdate => true
  | _ => false

/-- The callback `cb_clockUpdate`, examples/scs_synchronous.c 14-18, which gives the new value of `countdownClocksQualifier[0]`; the status
of `FMI3GetIntervalDecimal` is ignored. `countdownClockIntervals[0]` is not used by the program and not modelled. -/
def cbClockUpdate (m : Model F D) (fuel : Nat) (w : FMI3.World F D) : Outcome (FMI3.World F D × Int) :=
  FMI3.step m fuel w (.getIntervalDecimal (some [1003]) 1 (some [Arith.lit 0]) (some [0])) >>- fun (w, _, o) =>
  match o with
  | .intervals _ (some [q]) => .ret (w, q)
  | _ => .ret (w, 0)

/-- `FMI3ActivateModelPartition` with the callback; `q` is `countdownClocksQualifier[0]`. Simplification: the callback is executed when the
function has returned. In the FMU the call is the last action of the model partition (Clocks/model.c 43, 76, 115), so the order is the same. -/
def activate (m : Model F D) (fuel : Nat) (clock : Nat) (time : F) (w : FMI3.World F D) (q : Int) : Outcome (FMI3.World F D × Status × Int) :=
  FMI3.step m fuel w (.activateModelPartition clock time) >>- fun (w', s, _) =>
  if (w'.inst.mv.trace.drop w.inst.mv.trace.length).any isClockUpdate then cbClockUpdate m fuel w' >>- fun (w', q) => .ret (w', s, q)
  else .ret (w', s, q)

/-- `CALL(FMI3ActivateModelPartition(...))`. examples/scs_synchronous.c 47-68; the macro is examples/util.h 45. -/
def ACTIVATE (m : Model F D) (fuel : Nat) (clock : Nat) (time : F) (w : FMI3.World F D) (q : Int) (rows : List (Row F (FMI3.Out F)))
    (k : FMI3.World F D → Int → Outcome (Status × List (Row F (FMI3.Out F)))) : Outcome (Status × List (Row F (FMI3.Out F))) :=
  activate m fuel clock time w q >>- fun (w, s, q) => if s = .OK then k w q else tearDown (api3 m fuel (Arith.lit 0)) w s rows

/-- The condition of examples/scs_synchronous.c 53; the remainder of C truncates. -/
def secondActive (time : Int) : Bool := decide (time.tmod 8 = 0) || decide ((time - 1).tmod 8 = 0)

/-- The calls of `recordVariables`, examples/Clocks.c 15-26. -/
def record : List (FMI3.Op F) := [.get .int32 (some [2001, 2002, 2003, 2004]) 4 (some [(0 : Int), 0, 0, 0]) 4]

/-- The loop, examples/scs_synchronous.c 47-68; `stop` is 10 there, `n` bounds the number of passes. `outClockValues` is not used by the program
and not initialized before the first call; the model passes `false`. -/
def syncLoop (m : Model F D) (fuel : Nat) (stop : Int) :
    (n : Nat) → (time : Int) → FMI3.World F D → (q : Int) → List (Row F (FMI3.Out F)) → Outcome (Status × List (Row F (FMI3.Out F)))
  | 0, _, _, _, _ => .hang
  | n + 1, time, w, q, rows =>
    let api := api3 m fuel (Arith.lit 0)
    if time < stop then
      let t : F := Arith.lit (time : Rat)
      ACTIVATE m fuel 1001 t w q rows fun w q =>
      let third (w : FMI3.World F D) (q : Int) : Outcome (Status × List (Row F (FMI3.Out F))) :=
        let rest (w : FMI3.World F D) (q : Int) : Outcome (Status × List (Row F (FMI3.Out F))) :=
          CALLS api [.getClock (some [1005]) 1 (some [false, false])] w rows fun w _ =>
          CALLS api record w rows fun w vs =>
          syncLoop m fuel stop n (time + 1) w q (rows ++ [⟨t, vs⟩])
        if q = 2 then ACTIVATE m fuel 1003 t w q rows fun w _ => rest w 1 else rest w q
      if secondActive time then ACTIVATE m fuel 1002 t w q rows third else third w q
    else tearDown api w .OK rows

/-- examples/scs_synchronous.c 21-70, for `stop` seconds; the callbacks lockPreemption and unlockPreemption are NULL. -/
def synchronous (m : Model F D) (fuel : Nat) (stop : Int) (n : Nat) : Outcome (Status × List (Row F (FMI3.Out F))) :=
  match FMI3.instantiateScheduledExecution m (some "instance1") (some m.token) none false true true false false true with
  | (none, _) => .ret (.Error, [])
  | (some c, _) =>
    CALLS (api3 m fuel (Arith.lit 0)) [.enterInitializationMode (Arith.lit 0) false (Arith.lit 0), .exitInitializationMode] (.fresh c) [] fun w _ =>
    syncLoop m fuel stop n 0 w 0 []

end Verif.Importer.Sync
