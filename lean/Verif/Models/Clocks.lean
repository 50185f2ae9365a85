import Verif.Core

/-! # Clocks: `Clocks/model.c`, `Clocks/config.h` (FMI 3.0 only)

Here the three model partitions run to completion; their preemption is modelled in
`Verif.Preempt`. -/

namespace Verif.Clocks
open Verif

/-- `ModelData`, Clocks/config.h 43-54. All counters are `int`. -/
structure Data (F : Type) where
  inClock3_interval : F
  inClock3_qualifier : Int
  outClock : Int
  inClock1Ticks : Int
  inClock2Ticks : Int
  inClock3Ticks : Int
  totalInClockTicks : Int
  result2 : Int
  input2 : Int
  output3 : Int
  deriving DecidableEq, Repr

variable {F : Type} [Arith F]

/-- An `int` result: undefined behaviour if it does not fit. For the increments and sums in Clocks/model.c 31-32, 62-67, 101-107. -/
def toInt32 (v : Int) : Outcome Int :=
  if -(2 ^ 31) ≤ v ∧ v < 2 ^ 31 then .ret v else .ub

/-- `M(outClock) = ((M(outClock) == false) && (M(totalInClockTicks) % 5 == 0));`,
Clocks/model.c 40, 69, 108. C's `%` truncates. -/
def setOutClock (d : Data F) : Data F :=
  { d with outClock := if d.outClock = 0 ∧ d.totalInClockTicks.tmod 5 = 0 then 1 else 0 }

/-- Append a callback invocation to the trace. The calls in Clocks/model.c 43, 58, 72, 76, 104, 111, 115. -/
def emit (mv : MV F (Data F)) (e : Ev F) : MV F (Data F) := { mv with trace := mv.trace ++ [e] }

/-- `comp->clockUpdate(...)`, Clocks/model.c 43, 76, 115: there is no NULL check. -/
def callClockUpdate (ctx : Ctx F) (mv : MV F (Data F)) : Outcome (MV F (Data F)) :=
  if ctx.clockUpdate then .ret (emit mv .clockUpdate) else .ub

/-- `if (comp->lockPreemption) comp->lockPreemption();`, Clocks/model.c 57-59, 103-105 -/
def callLock (ctx : Ctx F) (mv : MV F (Data F)) : MV F (Data F) :=
  if ctx.lockPreemption then emit mv .lock else mv

/-- `if (comp->unlockPreemption) comp->unlockPreemption();`, Clocks/model.c 71-73, 110-112 -/
def callUnlock (ctx : Ctx F) (mv : MV F (Data F)) : MV F (Data F) :=
  if ctx.unlockPreemption then emit mv .unlock else mv

/-- `activateModelPartition1`, Clocks/model.c 23-45 -/
def partition1 (ctx : Ctx F) (mv : MV F (Data F)) (time : F) : Outcome (MV F (Data F)) :=
  let d := mv.data
  toInt32 (d.inClock1Ticks + 1) >>- fun t1 =>
  toInt32 (d.totalInClockTicks + 1) >>- fun tot =>
  let d := { d with inClock1Ticks := t1, totalInClockTicks := tot }
  match Arith.toInt time with
  | none => .ub
  | some it =>
    let d := if it = 4 then
      { d with inClock3_qualifier := 2, inClock3_interval := Arith.lit 0 } else d
    let d := setOutClock d
    let mv := { mv with data := d }
    if d.inClock3_qualifier = 2 ∨ d.outClock ≠ 0 then callClockUpdate ctx mv else .ret mv

/-- `activateModelPartition2`, Clocks/model.c 53-78 -/
def partition2 (ctx : Ctx F) (mv : MV F (Data F)) : Outcome (MV F (Data F)) :=
  let mv := callLock ctx mv
  let d := mv.data
  toInt32 (d.inClock2Ticks + 1) >>- fun t2 =>
  toInt32 (d.totalInClockTicks + 1) >>- fun tot =>
  toInt32 (d.result2 + d.input2) >>- fun res =>
  let d := { d with inClock2Ticks := t2, totalInClockTicks := tot, result2 := res, input2 := 0 }
  let d := setOutClock d
  let mv := callUnlock ctx { mv with data := d }
  if d.outClock ≠ 0 then callClockUpdate ctx mv else .ret mv

/-- `activateModelPartition3`, Clocks/model.c 87-117. The busy loop 95-99 has no effect. -/
def partition3 (ctx : Ctx F) (mv : MV F (Data F)) : Outcome (MV F (Data F)) :=
  let d := mv.data
  toInt32 (d.inClock3Ticks + 1) >>- fun t3 =>
  let mv := callLock ctx { mv with data := { d with inClock3Ticks := t3, output3 := 1000 } }
  let d := mv.data
  toInt32 (d.totalInClockTicks + 1) >>- fun tot =>
  let d := setOutClock { d with totalInClockTicks := tot }
  let mv := callUnlock ctx { mv with data := d }
  if d.outClock ≠ 0 then callClockUpdate ctx mv else .ret mv

/-- `setStartValues`, Clocks/model.c 119-136 -/
def setStartValues (_ : Ctx F) (mv : MV F (Data F)) : MV F (Data F) :=
  { mv with data := ⟨Arith.lit 0, 0, 0, 0, 0, 0, 0, 0, 0, 0⟩, isDirtyValues := true }

/-- `getFloat64`, Clocks/model.c 158-170 -/
def getFloat64 (ctx : Ctx F) (mv : MV F (Data F)) (vr : Nat) (values : Ptr F)
    (nValues index : Nat) : MRes F (Data F) (Ptr F × Nat) :=
  assertNValues ctx mv 1 nValues index (values, index) <|
  match vr with
  | 0 => values.write index ctx.time >>- fun p => .ret (mv, .OK, (p, index + 1))
  | _ => failM ctx mv "Get Float64 is not allowed for value reference %u." (values, index)

/-- `setInt32`, Clocks/model.c 172-184. It does not mark the values as dirty. -/
def setInt32 (ctx : Ctx F) (mv : MV F (Data F)) (vr : Nat) (values : Ptr Int)
    (nValues index : Nat) : MRes F (Data F) Nat :=
  assertNValues ctx mv 1 nValues index index <|
  match vr with
  | 2006 => values.read index >>- fun v =>
    .ret ({ mv with data := { mv.data with input2 := v } }, .OK, index + 1)
  | _ => failM ctx mv "Set Int32 is not allowed for value reference %u." index

/-- The variables of `getInt32`, Clocks/model.c 190-212 -/
def intVar (d : Data F) (vr : Nat) : Option Int :=
  match vr with
  | 2001 => some d.inClock1Ticks
  | 2002 => some d.inClock2Ticks
  | 2003 => some d.inClock3Ticks
  | 2004 => some d.totalInClockTicks
  | 2005 => some d.result2
  | 2006 => some d.input2
  | 2007 => some d.output3
  | _ => none

/-- `getInt32`, Clocks/model.c 186-216 -/
def getInt32 (ctx : Ctx F) (mv : MV F (Data F)) (vr : Nat) (values : Ptr Int)
    (nValues index : Nat) : MRes F (Data F) (Ptr Int × Nat) :=
  assertNValues ctx mv 1 nValues index (values, index) <|
  match intVar mv.data vr with
  | some v => values.write index v >>- fun p => .ret (mv, .OK, (p, index + 1))
  | none => failM ctx mv "Get Int32 is not allowed for value reference %u." (values, index)

/-- `getClock`, Clocks/model.c 218-229 -/
def getClock (ctx : Ctx F) (mv : MV F (Data F)) (vr : Nat) (old : Bool) : MRes F (Data F) Bool :=
  match vr with
  | 1005 => .ret ({ mv with data := { mv.data with outClock := 0 } }, .OK,
      decide (mv.data.outClock ≠ 0))
  | _ => failM ctx mv "Get Clock is not allowed for value reference %u." old

/-- `getInterval`, Clocks/model.c 231-244 -/
def getInterval (ctx : Ctx F) (mv : MV F (Data F)) (vr : Nat) (oldI : F) (oldQ : Int) :
    MRes F (Data F) (F × Int) :=
  match vr with
  | 1003 =>
    if mv.data.inClock3_qualifier = 2 then
      .ret ({ mv with data := { mv.data with inClock3_qualifier := 1 } }, .OK,
        (mv.data.inClock3_interval, 2))
    else .ret (mv, .OK, (oldI, mv.data.inClock3_qualifier))
  | _ => failM ctx mv "Get Interval is not allowed for value reference %u." (oldI, oldQ)

/-- `activateModelPartition`, Clocks/model.c 246-262 -/
def activateModelPartition (ctx : Ctx F) (mv : MV F (Data F)) (vr : Nat) (time : F) :
    MRes F (Data F) Unit :=
  match vr with
  | 1001 => partition1 ctx mv time >>- fun mv => .ret (mv, .OK, ())
  | 1002 => partition2 ctx mv >>- fun mv => .ret (mv, .OK, ())
  | 1003 => partition3 ctx mv >>- fun mv => .ret (mv, .OK, ())
  | _ => failM ctx mv "Activate model partition is not allowed for value reference %u." ()

/-- The FMU Clocks: Clocks/config.h 7-25 and the functions above; `calculateValues` 138-143,
`eventUpdate` 145-148 and `activateClock` 150-156 do nothing. `MODEL_EXCHANGE` is not defined;
`CO_SIMULATION` is not defined either, but no code checks it. -/
def model : Model F (Data F) where
  token := "{C5F142BA-B849-42DA-B4A1-4745BFF3BE28}"
  modelExchange := false
  scheduledExecution := true
  h := Arith.lit 1
  data0 := ⟨Arith.lit 0, 0, 0, 0, 0, 0, 0, 0, 0, 0⟩
  setStartValues := setStartValues
  calculateValues := fun _ mv => .ret (mv, .OK, ())
  get := fun t => match t with
    | .float64 => getFloat64
    | .int32 => getInt32
    | t => getStub t
  set := fun t => match t with
    | .int32 => setInt32
    | t => setStub t
  eventUpdate := some fun _ mv => .ret (mv, .OK, ())
  activateClock := fun _ mv _ => .ret (mv, .OK, ())
  getClock := getClock
  getInterval := getInterval
  activateModelPartition := activateModelPartition

end Verif.Clocks
