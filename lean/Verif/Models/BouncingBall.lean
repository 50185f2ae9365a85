import Verif.Core

/-! # BouncingBall: `BouncingBall/model.c`, `BouncingBall/config.h` -/

namespace Verif.BouncingBall
open Verif

/-- `ModelData`, BouncingBall/config.h 25-32 -/
structure Data (F : Type) where
  h : F
  v : F
  g : F
  e : F
  deriving DecidableEq, Repr

variable {F : Type} [Arith F]

/-- `V_MIN`, BouncingBall/model.c 6 -/
def vMin : F := Arith.lit (1 / 10)
/-- `EVENT_EPSILON`, BouncingBall/model.c 7 -/
def eventEpsilon : F := Arith.lit (1 / 10000000000)
/-- `DBL_MIN` of float.h, used in BouncingBall/model.c 167 -/
def dblMin : F := Arith.lit (1 / 2 ^ 1022)

/-- `setStartValues`, BouncingBall/model.c 10-21 -/
def setStartValues (_ : Ctx F) (mv : MV F (Data F)) : MV F (Data F) :=
  { mv with
    data := { h := Arith.lit 1, v := Arith.lit 0, g := Arith.neg (Arith.lit (981 / 100)),
              e := Arith.lit (7 / 10) }
    isDirtyValues := true }

/-- `calculateValues`, BouncingBall/model.c 23-29 -/
def calcValues (mv : MV F (Data F)) : MV F (Data F) := { mv with isDirtyValues := false }

/-- `getFloat64`, BouncingBall/model.c 31-69; value references from config.h 21-23 -/
def getFloat64 (ctx : Ctx F) (mv : MV F (Data F)) (vr : Nat) (values : Ptr F)
    (nValues index : Nat) : MRes F (Data F) (Ptr F × Nat) :=
  assertNotNull ctx mv values (values, index) <|
  let mv := calcValues mv
  let d := mv.data
  match vr with
  | 0 => putScalar ctx mv values nValues index ctx.time
  | 1 => putScalar ctx mv values nValues index d.h
  | 2 => putScalar ctx mv values nValues index d.v
  | 3 => putScalar ctx mv values nValues index d.v
  | 4 => putScalar ctx mv values nValues index d.g
  | 5 => putScalar ctx mv values nValues index d.g
  | 6 => putScalar ctx mv values nValues index d.e
  | 7 => putScalar ctx mv values nValues index vMin
  | _ => failM ctx mv "Get Float64 is not allowed for value reference %u." (values, index)

/-- The modes in which `h` and `v` may be set, BouncingBall/model.c 79-82, 91-94. -/
def stateSettable (s : Mode) : Bool :=
  s = .instantiated || s = .initializationMode || s = .continuousTimeMode || s = .eventMode

/-- `setFloat64`, BouncingBall/model.c 71-137 -/
def setFloat64 (ctx : Ctx F) (mv : MV F (Data F)) (vr : Nat) (values : Ptr F)
    (nValues index : Nat) : MRes F (Data F) Nat :=
  assertNotNull ctx mv values index <|
  let d := mv.data
  match vr with
  | 1 =>
    if !stateSettable ctx.state then
      failM ctx mv "Variable \"h\" can only be set in Instantiated Mode, Initialization Mode, Continuous Time Mode, and Event Mode." index
    else takeScalar ctx mv values nValues index fun v => { d with h := v }
  | 3 =>
    if !stateSettable ctx.state then
      failM ctx mv "Variable \"v\" can only be set in Instantiated Mode, Initialization Mode, Continuous Time Mode, and Event Mode." index
    else takeScalar ctx mv values nValues index fun v => { d with v := v }
  | 5 =>
    if ctx.typ = .modelExchange && ctx.state ≠ .instantiated && ctx.state ≠ .initializationMode then
      failM ctx mv "Variable g can only be set after instantiation or in initialization mode." index
    else takeScalar ctx mv values nValues index fun v => { d with g := v }
  | 6 =>
    if ctx.typ = .modelExchange && ctx.state ≠ .instantiated && ctx.state ≠ .initializationMode
        && ctx.state ≠ .eventMode then
      failM ctx mv "Variable e can only be set after instantiation, in initialization mode or event mode." index
    else takeScalar ctx mv values nValues index fun v => { d with e := v }
  | 7 => failM ctx mv "Variable v_min (value reference %u) is constant and cannot be set." index
  | _ => failM ctx mv "Unexpected value reference: %u." index

/-- `getOutputDerivative`, BouncingBall/model.c 139-160. The output pointer is non-NULL, because
the callers pass the address of an array element. -/
def getOutputDerivative (ctx : Ctx F) (mv : MV F (Data F)) (vr : Nat) (order : Int) (old : F) :
    MRes F (Data F) F :=
  if order ≠ 1 then
    failM ctx mv "The output derivative order %d for value reference %u is not available." old
  else
    let mv := calcValues mv
    match vr with
    | 1 => .ret (mv, .OK, mv.data.v)
    | 3 => .ret (mv, .OK, mv.data.g)
    | _ => failM ctx mv "The output derivative for value reference %u is not available." old

/-- `eventUpdate`, BouncingBall/model.c 162-188 -/
def eventUpdate (_ : Ctx F) (mv : MV F (Data F)) : MRes F (Data F) Unit :=
  let d := mv.data
  let mv :=
    if d.h <=. Arith.lit 0 && d.v <. Arith.lit 0 then
      let v := Arith.neg d.v *. d.e
      let d := { d with h := dblMin, v := v }
      let d := if v <. vMin then { d with v := Arith.lit 0, g := Arith.lit 0 } else d
      { mv with data := d, valuesChanged := true }
    else { mv with valuesChanged := false }
  .ret ({ mv with
    nominalsChanged := false, terminateSimulation := false, nextEventTimeDefined := false,
    isDirtyValues := true }, .OK, ())

/-- The event indicator, BouncingBall/model.c 259-264 -/
def indicator (d : Data F) : F :=
  if Arith.neg eventEpsilon <. d.h && d.h <=. Arith.lit 0 && Arith.lit 0 <. d.v then
    Arith.neg eventEpsilon
  else d.h

/-- The FMU BouncingBall: BouncingBall/config.h 5-19 and the functions above;
`getNumberOfEventIndicators`, `getNumberOfContinuousStates`, model.c 190-198;
`getContinuousStates` 200-211, `getNominalsOfContinuousStates` 213-224,
`setContinuousStates` 226-237, `getDerivatives` 239-250, `getEventIndicators` 252-267. -/
def model : Model F (Data F) where
  token := "{1AE5E10D-9521-4DE3-80B9-D0EAAA7D5AF1}"
  h := Arith.lit (1 / 1000)
  maxNX := 2
  maxNZ := 1
  data0 := ⟨Arith.lit 0, Arith.lit 0, Arith.lit 0, Arith.lit 0⟩
  setStartValues := setStartValues
  calculateValues := fun _ mv => .ret (calcValues mv, .OK, ())
  get := fun t => match t with
    | .float64 => getFloat64
    | t => getStub t
  set := fun t => match t with
    | .float64 => setFloat64
    | t => setStub t
  eventUpdate := some eventUpdate
  numContinuousStates := fun _ => 2
  numEventIndicators := fun _ => 1
  getContinuousStates := fun ctx mv p n => putVector ctx mv (calcValues mv) p n [mv.data.h, mv.data.v]
  getNominals := fun ctx mv p n => putVector ctx mv (calcValues mv) p n [Arith.lit 1, Arith.lit 1]
  setContinuousStates := fun ctx mv p n =>
    takeVector ctx mv p n 2 fun l => { mv.data with h := l.getD 0 mv.data.h, v := l.getD 1 mv.data.v }
  getDerivatives := fun ctx mv p n => putVector ctx mv (calcValues mv) p n [mv.data.v, mv.data.g]
  getEventIndicators := fun ctx mv p n => putVector ctx mv (calcValues mv) p n [indicator mv.data]
  getOutputDerivative := some getOutputDerivative

end Verif.BouncingBall
