import Verif.Models.Clocks

/-!
# Preemption of the model partitions of Clocks

In Scheduled Execution an importer may interrupt a model partition by one of a higher priority
(examples/scs_threaded.c runs each activation in a thread of its own, all on one processor). Here the
three `activateModelPartition` functions of Clocks/model.c are lists of instructions that read or write one
variable of `ModelData` each, and a scheduler interleaves them.

Simplifications: an access to an `int` or `double` is atomic, the compiler keeps the order of the accesses, and
lockPreemption switches preemption off until unlockPreemption, which is what FMI 3.0 asks importers to implement.
-/

namespace Verif.Clocks
open Verif

/-- The `int` variables of `ModelData`, Clocks/config.h 43-54 -/
inductive Var
  | qualifier | outClock | ticks1 | ticks2 | ticks3 | total | result2 | input2 | output3
  deriving DecidableEq, Repr

/-- The variable `M(v)`, Clocks/config.h 43-54 -/
def Data.get {F : Type} (d : Data F) : Var → Int
  | .qualifier => d.inClock3_qualifier
  | .outClock => d.outClock
  | .ticks1 => d.inClock1Ticks
  | .ticks2 => d.inClock2Ticks
  | .ticks3 => d.inClock3Ticks
  | .total => d.totalInClockTicks
  | .result2 => d.result2
  | .input2 => d.input2
  | .output3 => d.output3

/-- The assignment `M(v) = x`, Clocks/config.h 43-54 -/
def Data.put {F : Type} (d : Data F) (v : Var) (x : Int) : Data F :=
  match v with
  | .qualifier => { d with inClock3_qualifier := x }
  | .outClock => { d with outClock := x }
  | .ticks1 => { d with inClock1Ticks := x }
  | .ticks2 => { d with inClock2Ticks := x }
  | .ticks3 => { d with inClock3Ticks := x }
  | .total => { d with totalInClockTicks := x }
  | .result2 => { d with result2 := x }
  | .input2 => { d with input2 := x }
  | .output3 => { d with output3 := x }

/-- The registers of a processor that hold the values read by a partition: `own` and `tot` while a counter is
incremented, `a` and `b` otherwise. They model the evaluation of the expressions in Clocks/model.c 32-117. -/
inductive Reg
  | own | tot | a | b
  deriving DecidableEq, Repr

/-- The accesses to shared data in Clocks/model.c 32-117. -/
inductive Instr
  /-- read a variable -/
  | load (r : Reg) (v : Var)
  /-- the write of `M(v)++` -/
  | incr (v : Var) (r : Reg)
  /-- the write of `M(result2) += M(input2)` -/
  | add (v : Var) (r r' : Reg)
  /-- `M(v) = x` -/
  | const (v : Var) (x : Int)
  /-- `M(inClock3_interval) = 0.0` -/
  | interval
  /-- the write of `M(outClock) = ((M(outClock) == false) && (M(totalInClockTicks) % 5 == 0))` -/
  | tick (out total : Reg)
  /-- `if (comp->lockPreemption) comp->lockPreemption();` -/
  | lock
  /-- `if (comp->unlockPreemption) comp->unlockPreemption();` -/
  | unlock
  /-- the conversion `(int)time` of a number that does not fit -/
  | trap
  /-- `if (M(inClock3_qualifier) == 2 || M(outClock)) comp->clockUpdate(...)` -/
  | notify (qualifier out : Reg)
  /-- `if (M(outClock)) comp->clockUpdate(...)` -/
  | notifyOut (out : Reg)
  deriving DecidableEq, Repr

/-- The three input clocks with their model partitions, Clocks/model.c 246-262 -/
inductive Part
  | one | two | three
  deriving DecidableEq, Repr

/-- Value reference of the clock, Clocks/config.h 31-33 -/
def Part.clock : Part → Nat
  | .one => 1001
  | .two => 1002
  | .three => 1003

/-- The counter of the clock, Clocks/model.c 32, 62, 92 -/
def Part.ticks : Part → Var
  | .one => .ticks1
  | .two => .ticks2
  | .three => .ticks3

variable {F : Type} [Arith F]

/-- `activateModelPartition1`, Clocks/model.c 23-45. `it` is `(int)time`. -/
def code1 (it : Option Int) : List Instr :=
  [.load .own .ticks1, .incr .ticks1 .own, .load .tot .total, .incr .total .tot] ++
  (match it with
    | none => [.trap]
    | some it => if it = 4 then [.const .qualifier 2, .interval] else []) ++
  [.load .a .outClock, .load .b .total, .tick .a .b, .load .a .qualifier, .load .b .outClock, .notify .a .b]

/-- `activateModelPartition2`, Clocks/model.c 53-78 -/
def code2 : List Instr :=
  [.lock, .load .own .ticks2, .incr .ticks2 .own, .load .tot .total, .incr .total .tot,
    .load .a .result2, .load .b .input2, .add .result2 .a .b, .const .input2 0,
    .load .a .outClock, .load .b .total, .tick .a .b, .unlock, .load .b .outClock, .notifyOut .b]

/-- `activateModelPartition3`, Clocks/model.c 87-117. The loop 95-99 reads and writes only local variables. -/
def code3 : List Instr :=
  [.load .own .ticks3, .incr .ticks3 .own, .const .output3 1000, .lock, .load .tot .total, .incr .total .tot,
    .load .a .outClock, .load .b .total, .tick .a .b, .unlock, .load .b .outClock, .notifyOut .b]

/-- `activateModelPartition`, Clocks/model.c 246-262 -/
def Part.code (p : Part) (time : F) : List Instr :=
  match p with
  | .one => code1 (Arith.toInt time)
  | .two => code2
  | .three => code3

/-- The values of the registers, see `Reg`: Clocks/model.c 32-117. -/
abbrev Regs := Reg → Int

/-- One instruction: Clocks/model.c 32-117, see the constructors of `Instr`. -/
def Instr.exec (ctx : Ctx F) (i : Instr) (g : Regs) (mv : MV F (Data F)) : Outcome (Regs × MV F (Data F)) :=
  match i with
  | .load r v => .ret (fun r' => if r' = r then mv.data.get v else g r', mv)
  | .incr v r => toInt32 (g r + 1) >>- fun x => .ret (g, { mv with data := mv.data.put v x })
  | .add v r r' => toInt32 (g r + g r') >>- fun x => .ret (g, { mv with data := mv.data.put v x })
  | .const v x => .ret (g, { mv with data := mv.data.put v x })
  | .interval => .ret (g, { mv with data := { mv.data with inClock3_interval := Arith.lit 0 } })
  | .tick o t => .ret (g, { mv with data := mv.data.put .outClock (if g o = 0 ∧ (g t).tmod 5 = 0 then 1 else 0) })
  | .lock => .ret (g, callLock ctx mv)
  | .unlock => .ret (g, callUnlock ctx mv)
  | .trap => .ub
  | .notify q o => (if g q = 2 ∨ g o ≠ 0 then callClockUpdate ctx mv else .ret mv) >>- fun mv => .ret (g, mv)
  | .notifyOut o => (if g o ≠ 0 then callClockUpdate ctx mv else .ret mv) >>- fun mv => .ret (g, mv)

/-- A running or interrupted call of `activateModelPartition`, Clocks/model.c 246-262: what is left of it and
its registers. -/
structure Frame where
  part : Part
  rest : List Instr
  regs : Regs

/-- The instance and the running activations: the first frame runs, the others have been interrupted. One frame per
thread of examples/scs_threaded.c 225-245, which run on one processor. -/
structure Sched (F : Type) where
  mv : MV F (Data F)
  frames : List Frame
  /-- lockPreemption has been called, and unlockPreemption has not -/
  locked : Bool

/-- No activation is running: all calls of `activateModelPartition`, Clocks/model.c 246-262, have returned. -/
def Sched.idle (mv : MV F (Data F)) : Sched F := ⟨mv, [], false⟩

/-- What can happen next. Besides the activations of examples/scs_threaded.c 225-245, the importer can read and write
variables at any time, as its callback `cb_clockUpdate` and its threads do (examples/scs_threaded.c 330-375). -/
inductive Action (F : Type)
  /-- `fmi3ActivateModelPartition` is called -/
  | start (p : Part) (time : F)
  /-- the running activation makes a step -/
  | exec
  /-- `fmi3GetClock` of `outClock` -/
  | getClock
  /-- `fmi3GetIntervalDecimal` of `inClock3` -/
  | getInterval
  /-- `fmi3SetInt32` of `input2` -/
  | setInput (x : Int)

/-- When the scheduler allows an action. A partition starts if nothing is running, or if it has a higher priority than the
running one (a lower number, as in Clocks/FMI3.xml 11-13) and preemption has not been locked: the
threads of examples/scs_threaded.c 225-245 with their priorities 121-129. -/
def Sched.allows (prio : Part → Nat) (s : Sched F) : Action F → Bool
  | .start p _ => match s.frames with
    | [] => true
    | fr :: _ => !s.locked && decide (prio p < prio fr.part)
  | .exec => !s.frames.isEmpty
  | _ => true

/-- `lockPreemption` and `unlockPreemption` as FMI 3.0 asks importers to implement them, cf. examples/scs_threaded.c
385-395. If the callbacks are NULL nothing is locked. -/
def Instr.locks (ctx : Ctx F) (i : Instr) (locked : Bool) : Bool :=
  match i with
  | .lock => ctx.lockPreemption || locked
  | .unlock => !ctx.unlockPreemption && locked
  | _ => locked

/-- The effect of an action: `activateModelPartition`, `getClock`, `getInterval` and `setInt32`, Clocks/model.c 172-262. -/
def Sched.act (ctx : Ctx F) (s : Sched F) : Action F → Outcome (Sched F)
  | .start p time => .ret { s with frames := ⟨p, p.code time, fun _ => 0⟩ :: s.frames }
  | .exec => match s.frames with
    | [] => .ret s
    | fr :: frs => match fr.rest with
      | [] => .ret { s with frames := frs }
      | i :: rest => i.exec ctx fr.regs s.mv >>- fun (g, mv) =>
        .ret ⟨mv, { fr with rest := rest, regs := g } :: frs, i.locks ctx s.locked⟩
  | .getClock => .ret { s with mv := { s.mv with data := { s.mv.data with outClock := 0 } } }
  | .getInterval => .ret (if s.mv.data.inClock3_qualifier = 2 then
      { s with mv := { s.mv with data := { s.mv.data with inClock3_qualifier := 1 } } } else s)
  | .setInput x => .ret { s with mv := { s.mv with data := { s.mv.data with input2 := x } } }

/-- A schedule: actions the scheduler allows (cf. examples/scs_threaded.c 215-252), none of which is undefined behaviour. -/
inductive Schedule (ctx : Ctx F) (prio : Part → Nat) : Sched F → List (Action F) → Sched F → Prop
  | nil (s : Sched F) : Schedule ctx prio s [] s
  | cons {s s' s'' : Sched F} {a : Action F} {as : List (Action F)} (h : s.allows prio a = true) (e : s.act ctx a = .ret s')
      (t : Schedule ctx prio s' as s'') : Schedule ctx prio s (a :: as) s''

/-- `Schedule` as a function, for examples; cf. examples/scs_threaded.c 215-252. -/
def Sched.play (ctx : Ctx F) (prio : Part → Nat) (s : Sched F) : List (Action F) → Option (Sched F)
  | [] => some s
  | a :: as => if s.allows prio a then (match s.act ctx a with
    | .ret s' => s'.play ctx prio as
    | _ => none) else none

end Verif.Clocks
