import Verif.Core

/-! # Stair: `Stair/model.c`, `Stair/config.h` -/

namespace Verif.Stair
open Verif

/-- `ModelData`, Stair/config.h 23-27. `counter` is an `int`. -/
structure Data where
  counter : Int
  deriving DecidableEq, Repr

variable {F : Type} [Arith F]

/-- `setStartValues`, Stair/model.c 4-11 -/
def setStartValues (_ : Ctx F) (mv : MV F Data) : MV F Data :=
  { mv with data := { counter := 1 }, nextEventTime := Arith.lit 1, nextEventTimeDefined := true }

/-- `getFloat64`, Stair/model.c 19-35; value references from config.h 19-21.
`calculateValues`, 13-17, does nothing. -/
def getFloat64 (ctx : Ctx F) (mv : MV F Data) (vr : Nat) (values : Ptr F)
    (nValues index : Nat) : MRes F Data (Ptr F × Nat) :=
  assertNotNull ctx mv values (values, index) <|
  match vr with
  | 0 => putScalar ctx mv values nValues index ctx.time
  | _ => failM ctx mv "Get Float64 is not allowed for value reference %u." (values, index)

/-- `getInt32`, Stair/model.c 37-53 -/
def getInt32 (ctx : Ctx F) (mv : MV F Data) (vr : Nat) (values : Ptr Int)
    (nValues index : Nat) : MRes F Data (Ptr Int × Nat) :=
  assertNotNull ctx mv values (values, index) <|
  match vr with
  | 1 => putScalar ctx mv values nValues index mv.data.counter
  | _ => failM ctx mv "Get Int32 is not allowed for value reference %u." (values, index)

/-- `setInt32`, Stair/model.c 55-84. `values[*index]` is read before the check of `nValues`. -/
def setInt32 (ctx : Ctx F) (mv : MV F Data) (vr : Nat) (values : Ptr Int)
    (nValues index : Nat) : MRes F Data Nat :=
  assertNotNull ctx mv values index <|
  match vr with
  | 1 =>
    if ctx.state ≠ .instantiated && ctx.state ≠ .initializationMode then
      failM ctx mv "Variable \"counter\" can only be set in Instantiated and Intialization Mode." index
    else
      values.read index >>- fun v =>
      if v ≥ 10 then failM ctx mv "The maximum value for variable \"counter\" is 10." index
      else takeScalar ctx mv values nValues index fun v => { counter := v }
  | _ => failM ctx mv "Set Int32 is not allowed for value reference %u." index

/-- `eventUpdate`, Stair/model.c 86-105. Signed overflow of `counter++` is undefined. -/
def eventUpdate (ctx : Ctx F) (mv : MV F Data) : MRes F Data Unit :=
  (if mv.nextEventTimeDefined && isClose ctx.time mv.nextEventTime then
    if mv.data.counter ≥ 2 ^ 31 - 1 then .ub
    else .ret { mv with data := { counter := mv.data.counter + 1 },
                        nextEventTime := mv.nextEventTime +. Arith.lit 1 }
  else .ret mv) >>- fun mv =>
  if mv.data.counter > 10 then
    failM ctx mv "Variable \"counter\" cannot be incremented for values >= 10." ()
  else .ret ({ mv with
    valuesChanged := false, nominalsChanged := false,
    terminateSimulation := decide (mv.data.counter ≥ 10), nextEventTimeDefined := true }, .OK, ())

/-- The FMU Stair: Stair/config.h 5-17 and the functions above. -/
def model : Model F Data where
  token := "{BD403596-3166-4232-ABC2-132BDF73E644}"
  h := Arith.lit (2 / 10)
  data0 := ⟨0⟩
  setStartValues := setStartValues
  calculateValues := fun _ mv => .ret (mv, .OK, ())
  get := fun t => match t with
    | .float64 => getFloat64
    | .int32 => getInt32
    | t => getStub t
  set := fun t => match t with
    | .int32 => setInt32
    | t => setStub t
  eventUpdate := some eventUpdate

end Verif.Stair
