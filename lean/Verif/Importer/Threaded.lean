import Verif.Importer.Synchronous
import Verif.Preempt

/-!
# Importer: the program for Scheduled Execution with threads, examples/scs_threaded.c

The main program starts one thread for every tick of a clock and does not wait for it. A schedule says in which order the main program and the threads
make their steps. A step is a call of an FMI function, an access to a global variable, or the start of a thread.

Simplifications: the calls of FMI functions are atomic (C39 is about the interleaving inside them); starting a thread always succeeds; the priorities of
the threads and `Sleep` only restrict the schedules and are not modelled; `GlobalLock` (344, 386) does not exclude other threads, since the memory it is
given is fixed (185); messages and the lock of the processor are left out. `outputs_c1` and `outputs_c2` are not read by the program and not modelled.
The wrapper functions `FMI3*` are replaced by the functions of the FMU.
-/

namespace Verif.Importer.Threads
open Verif Importer.CoSim Importer.Sync Clocks

variable {F D : Type} [Arith F] [HasInf F]

/-- What a thread does, `thr_activateModelPartition`, examples/scs_threaded.c 466-514, and the callback `cb_clockUpdate`, 330-379, which it executes. -/
inductive Todo
  /-- `FMI3SetInt32(S, vrInputs_c2, 1, inputs_c2, 1)`, 488 -/
  | setInput
  /-- `inputs_c2[0] = 0`, 490 -/
  | zeroInput
  /-- `FMI3ActivateModelPartition(S, TA->clockRef, TA->activationTime)`, 480, 492, 501 -/
  | activate
  /-- `FMI3GetInt32`, 482, 494, 503 -/
  | getOutputs
  /-- `inputs_c2[0] = outputs_c3[2]`, 505 -/
  | putInput
  /-- `outputClocks[0] = fmi3ClockInactive`, 435 -/
  | clearClock
  /-- `FMI3GetClock(S, vrOutputClocks, 1, outputClocks)`, 437 -/
  | askClock
  /-- `return outputClocks[0]`, 438 -/
  | keepClock
  /-- `countdownClocksQualifier[0] = fmi3IntervalNotYetKnown`, 448 -/
  | clearInterval
  /-- `FMI3GetIntervalDecimal`, 450 -/
  | askInterval
  /-- `return countdownClocksQualifier[0] == fmi3IntervalChanged`, 451, and the condition 345 -/
  | keepInterval
  /-- `if (countdownClocksQualifier[0] == fmi3IntervalChanged)`, 353, and the arguments of the thread, 357-362 -/
  | testInterval
  /-- `_beginthreadex`, 363 -/
  | startThird
  deriving DecidableEq, Repr

/-- `cb_clockUpdate`, examples/scs_threaded.c 330-353. Simplification: the two operands of `&` in 345 are evaluated from left to right. -/
def callback : List Todo := [.clearClock, .askClock, .keepClock, .clearInterval, .askInterval, .keepInterval]

/-- The cases of `thr_activateModelPartition`, examples/scs_threaded.c 476-508. -/
def body : Part → List Todo
  | .one => [.activate, .getOutputs]
  | .two => [.setInput, .zeroInput, .activate, .getOutputs]
  | .three => [.activate, .getOutputs, .putInput]

/-- A thread, examples/scs_threaded.c 232, 363: the clock, what is left to do, and the value returned by `checkOutputClocks` (345). -/
structure Thread where
  part : Part
  todo : List Todo
  ticking : Bool := false
  deriving DecidableEq

/-- Where the main program is: the loop of examples/scs_threaded.c 215-252 and `tearDown`, examples/util.h 224-267. -/
inductive Main
  /-- the condition of the loop, and the start of the thread for inClock1 -/
  | first
  /-- the start of the thread for inClock2 -/
  | second
  /-- `time += stepSize` -/
  | advance
  /-- `FMI3Terminate` -/
  | terminate
  /-- `FMI3FreeInstance`, `FMIFreeInstance` and `S = NULL` -/
  | free
  | done
  deriving DecidableEq, Repr

/-- The program: the global variables of examples/scs_threaded.c 67-134 and the threads. `args` are the activation times in `thrArguments[0]`,
`thrArguments[1]` (208) and `iu_arguments` (94), which the threads read through a pointer. `calls` records the FMI functions called by the threads. -/
structure Prog (F D : Type) where
  w : FMI3.World F D
  /-- `S` points to an instance -/
  alive : Bool
  time : Nat
  main : Main
  threads : List Thread
  args : Part → Nat
  /-- `inputs_c2[0]` -/
  input : Int
  /-- `outputs_c3[2]` -/
  output : Int
  /-- `outputClocks[0]` -/
  outClock : Bool
  /-- `countdownClocksQualifier[0]` -/
  qualifier : Int
  calls : List (Part × Todo × Status)

/-- What the thread `i` has left to do: the progress of `thr_activateModelPartition`, examples/scs_threaded.c 466-514. -/
def Prog.goesOn (s : Prog F D) (i : Nat) (th : Thread) : Prog F D := { s with threads := s.threads.set i th }

/-- A call of an FMI function by a thread, examples/scs_threaded.c 437, 450, 480-503. After `tearDown` the variable `S` is NULL (examples/util.h 254) or points to
released memory. -/
def Prog.call (m : Model F D) (fuel : Nat) (s : Prog F D) (p : Part) (a : Todo) (op : FMI3.Op F)
    (k : Prog F D → Status → FMI3.Out F → Outcome (Prog F D)) : Outcome (Prog F D) :=
  if s.alive then
    FMI3.step m fuel s.w op >>- fun (w, st, o) => k { s with w := w, calls := s.calls ++ [(p, a, st)] } st o
  else .ub

/-- The value references read in examples/scs_threaded.c 482, 494, 503 (declared in 109-111). -/
def outputRefs : Part → List Nat
  | .one => [2001, 2004]
  | .two => [2002, 2004, 2005]
  | .three => [2003, 2004, 2007]

/-- `outputs_c3[2]` after `FMI3GetInt32`, examples/scs_threaded.c 503. -/
def lastOutput (p : Part) (o : FMI3.Out F) (old : Int) : Int :=
  match p, o with
  | .three, .values .int32 (some [_, _, x]) => x
  | _, _ => old

/-- `outputClocks[0]` after `FMI3GetClock`, examples/scs_threaded.c 437; its status is ignored. -/
def clockValue (o : FMI3.Out F) : Bool :=
  match o with
  | .bools (some [b]) => b
  | _ => false

/-- `countdownClocksQualifier[0]` after `FMI3GetIntervalDecimal`, examples/scs_threaded.c 450; its status is ignored. -/
def qualifierValue (o : FMI3.Out F) : Int :=
  match o with
  | .intervals _ (some [q]) => q
  | _ => 0

/-- One step of the thread `i`, which is `th` with `rest` to do after `a`: examples/scs_threaded.c 330-379, 466-514, see `Todo`. The callback is executed
when the model partition has returned, as in `Importer/Synchronous.lean`. -/
def Prog.exec (m : Model F D) (fuel : Nat) (s : Prog F D) (i : Nat) (th : Thread) (a : Todo) (rest : List Todo) : Outcome (Prog F D) :=
  match a with
  | .setInput => s.call m fuel th.part a (.set .int32 (some [2006]) 1 (some [s.input]) 1) fun s st _ =>
    .ret (s.goesOn i { th with todo := if st = .OK then rest else [.zeroInput] })
  | .zeroInput => .ret ({ s with input := 0 }.goesOn i { th with todo := rest })
  | .activate =>
    s.call m fuel th.part a (.activateModelPartition th.part.clock (Arith.lit (s.args th.part : Rat))) fun s' st _ =>
    let called := (s'.w.inst.mv.trace.drop s.w.inst.mv.trace.length).any isClockUpdate
    .ret (s'.goesOn i { th with todo := (if called then callback else []) ++ if st = .OK then rest else [] })
  | .getOutputs =>
    let refs := outputRefs th.part
    s.call m fuel th.part a (.get .int32 (some refs) refs.length (some (refs.map fun _ => (0 : Int))) refs.length) fun s _ o =>
    .ret ({ s with output := lastOutput th.part o s.output }.goesOn i { th with todo := rest })
  | .putInput => .ret ({ s with input := s.output }.goesOn i { th with todo := rest })
  | .clearClock => .ret ({ s with outClock := false }.goesOn i { th with todo := rest })
  | .askClock => s.call m fuel th.part a (.getClock (some [1005]) 1 (some [false])) fun s _ o =>
    .ret ({ s with outClock := clockValue o }.goesOn i { th with todo := rest })
  | .keepClock => .ret (s.goesOn i { th with todo := rest, ticking := s.outClock })
  | .clearInterval => .ret ({ s with qualifier := 0 }.goesOn i { th with todo := rest })
  | .askInterval => s.call m fuel th.part a (.getIntervalDecimal (some [1003]) 1 (some [Arith.lit 0]) (some [0])) fun s _ o =>
    .ret ({ s with qualifier := qualifierValue o }.goesOn i { th with todo := rest })
  | .keepInterval => .ret (s.goesOn i { th with todo := if !th.ticking && s.qualifier ≠ 2 then rest else .testInterval :: rest })
  | .testInterval =>
    if s.qualifier = 2 then .ret ({ s with args := fun p => if p = Part.three then s.time else s.args p }.goesOn i { th with todo := .startThird :: rest })
    else .ret (s.goesOn i { th with todo := rest })
  | .startThird =>
    let s := s.goesOn i { th with todo := rest }
    .ret { s with threads := s.threads ++ [{ part := .three, todo := body .three }] }

/-- The main program starts the thread for a clock, examples/scs_threaded.c 227-232. -/
def Prog.start (s : Prog F D) (p : Part) : Prog F D :=
  { s with args := fun q => if q = p then s.time else s.args q, threads := s.threads ++ [{ part := p, todo := body p }] }

/-- One step of the main program, examples/scs_threaded.c 215-256 (the conditions are in `setAndCheckInputClocks`, 405-427; the one of inClock1 is always
true), and `tearDown`, examples/util.h 224-267. `stop` is `DEFAULT_STOP_TIME`, the step size is 1. Simplification: the status of `FMI3Terminate` does not
matter. -/
def Prog.mainStep (m : Model F D) (fuel stop : Nat) (s : Prog F D) : Outcome (Prog F D) :=
  match s.main with
  | .first => if s.time < stop then .ret { s.start .one with main := .second } else .ret { s with main := .terminate }
  | .second => .ret { (if secondActive s.time then s.start .two else s) with main := .advance }
  | .advance => .ret { s with time := s.time + 1, main := .first }
  | .terminate => FMI3.step m fuel s.w .terminate >>- fun (w, _, _) => .ret { s with w := w, main := .free }
  | .free => .ret { s with alive := false, main := .done }
  | .done => .ret s

/-- Who makes the next step: the main program (examples/scs_threaded.c 215-256) or a thread (466-514). -/
inductive Turn
  | main
  | thread (i : Nat)
  deriving DecidableEq, Repr

/-- One step of the program: examples/scs_threaded.c 215-256, 330-379, 466-514. A thread that has ended does nothing. -/
def Prog.step (m : Model F D) (fuel stop : Nat) (s : Prog F D) : Turn → Outcome (Prog F D)
  | .main => s.mainStep m fuel stop
  | .thread i => match s.threads[i]? with
    | none => .ret s
    | some th => match th.todo with
      | [] => .ret s
      | a :: rest => s.exec m fuel i th a rest

/-- The program under a schedule: examples/scs_threaded.c 215-256 with the threads it starts. -/
def Prog.run (m : Model F D) (fuel stop : Nat) : List Turn → Prog F D → Outcome (Prog F D)
  | [], s => .ret s
  | t :: ts, s => s.step m fuel stop t >>- Prog.run m fuel stop ts

/-- The part of the main program before the loop, examples/scs_threaded.c 145-213: the program at the beginning of the loop, if no call has failed. -/
def begin (m : Model F D) (fuel stop : Nat) : Outcome (Option (Prog F D)) :=
  match FMI3.instantiateScheduledExecution m (some "instance1") (some m.token) none true true true true true true with
  | (none, _) => .ret none
  | (some c, _) =>
    calls (FMI3.step m fuel) [.setDebugLogging true 1 (some [some "logEvents"]), .enterInitializationMode (Arith.lit 0) true (Arith.lit (stop : Rat)),
      .exitInitializationMode, .getClock (some [1005]) 1 (some [false])] (.fresh c) >>- fun (w, st, _) =>
    if st = .OK then
      .ret (some ⟨w, true, 0, .first, [], fun _ => 0, 0, 0, false, 0, []⟩)
    else .ret none

end Verif.Importer.Threads
