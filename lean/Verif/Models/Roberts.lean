import Verif.Core

/-! # Roberts: `Roberts/model.c`, `Roberts/config.h` -/

namespace Verif.Roberts
open Verif

/-- `ModelData`, Roberts/config.h 38-48 -/
structure Data (F : Type) where
  dae : Bool
  y1 : F
  der_y1 : F
  y2 : F
  der_y2 : F
  y3 : F
  r : F
  g1 : F
  g2 : F
  deriving DecidableEq, Repr

variable {F : Type} [Arith F]

/-- the literal `0.04`. Roberts/model.c 28-29 -/
def k1 : F := Arith.lit (4 / 100)
/-- the literal `1e4`. Roberts/model.c 28-29 -/
def k2 : F := Arith.lit 10000
/-- the literal `3e7`. Roberts/model.c 29 -/
def k3 : F := Arith.lit 30000000

/-- `setStartValues`, Roberts/model.c 8-19 -/
def setStartValues (_ : Ctx F) (mv : MV F (Data F)) : MV F (Data F) :=
  { mv with
    data := { mv.data with
      y1 := Arith.lit 1, y2 := Arith.lit 0, y3 := Arith.lit 0, dae := false }
    isDirtyValues := true }

/-- `calculateValues`, Roberts/model.c 21-36 -/
def calcValues (mv : MV F (Data F)) : MV F (Data F) :=
  let d := mv.data
  let d := if !d.dae then { d with y3 := Arith.lit 1 -. d.y1 -. d.y2 } else d
  { mv with
    data := { d with
      der_y1 := Arith.neg k1 *. d.y1 +. k2 *. d.y2 *. d.y3
      der_y2 := k1 *. d.y1 -. k2 *. d.y2 *. d.y3 -. k3 *. d.y2 *. d.y2
      r := d.y1 +. d.y2 +. d.y3 -. Arith.lit 1 }
    isDirtyValues := false }

/-- `getFloat64`, Roberts/model.c 38-90; value references from config.h 24-36 -/
def getFloat64 (ctx : Ctx F) (mv : MV F (Data F)) (vr : Nat) (values : Ptr F)
    (nValues index : Nat) : MRes F (Data F) (Ptr F × Nat) :=
  assertNotNull ctx mv values (values, index) <|
  let mv := calcValues mv
  let d := mv.data
  match vr with
  | 0 => putScalar ctx mv values nValues index ctx.time
  | 2 => putScalar ctx mv values nValues index d.y1
  | 3 => putScalar ctx mv values nValues index d.der_y1
  | 4 => putScalar ctx mv values nValues index d.y2
  | 5 => putScalar ctx mv values nValues index d.der_y2
  | 6 => putScalar ctx mv values nValues index d.y3
  | 7 => putScalar ctx mv values nValues index (Arith.lit (1 / 100))
  | 8 => putScalar ctx mv values nValues index d.r
  | 9 => putScalar ctx mv values nValues index d.g1
  | 10 => putScalar ctx mv values nValues index d.g2
  | _ => failM ctx mv "Get Float64 is not allowed for value reference %u." (values, index)

/-- `setFloat64`, Roberts/model.c 92-118 -/
def setFloat64 (ctx : Ctx F) (mv : MV F (Data F)) (vr : Nat) (values : Ptr F)
    (nValues index : Nat) : MRes F (Data F) Nat :=
  assertNotNull ctx mv values index <|
  let d := mv.data
  match vr with
  | 2 => takeScalar ctx mv values nValues index fun v => { d with y1 := v }
  | 4 => takeScalar ctx mv values nValues index fun v => { d with y2 := v }
  | 6 => takeScalar ctx mv values nValues index fun v => { d with y3 := v }
  | _ => failM ctx mv "Unexpected value reference: %u." index

/-- `getBoolean`, Roberts/model.c 120-138 -/
def getBoolean (ctx : Ctx F) (mv : MV F (Data F)) (vr : Nat) (values : Ptr Bool)
    (nValues index : Nat) : MRes F (Data F) (Ptr Bool × Nat) :=
  assertNotNull ctx mv values (values, index) <|
  let mv := calcValues mv
  match vr with
  | 1 => putScalar ctx mv values nValues index mv.data.dae
  | _ => failM ctx mv "Get Boolean is not allowed for value reference %u." (values, index)

/-- `setBoolean`, Roberts/model.c 140-158 -/
def setBoolean (ctx : Ctx F) (mv : MV F (Data F)) (vr : Nat) (values : Ptr Bool)
    (nValues index : Nat) : MRes F (Data F) Nat :=
  assertNotNull ctx mv values index <|
  match vr with
  | 1 => takeScalar ctx mv values nValues index fun v => { mv.data with dae := v }
  | _ => failM ctx mv "Set Boolean is not allowed for value reference %u." index

/-- `getPartialDerivative`, Roberts/model.c 170-199 -/
def getPartialDerivative (_ : Ctx F) (mv : MV F (Data F)) (unknown known : Nat) (_ : F) :
    MRes F (Data F) F :=
  let mv := calcValues mv
  let d := mv.data
  let r : F :=
    if unknown = 3 && known = 2 then Arith.neg k1
    else if unknown = 3 && known = 4 then k2 *. d.y3
    else if unknown = 3 && known = 6 then k2 *. d.y2
    else if unknown = 5 && known = 2 then k1
    else if unknown = 5 && known = 4 then
      Arith.neg k2 *. d.y3 -. Arith.lit 60000000 *. d.y2
    else if unknown = 5 && known = 6 then Arith.neg k2 *. d.y2
    else if unknown = 8 && known = 2 then Arith.lit 1
    else if unknown = 8 && known = 4 then Arith.lit 1
    else if unknown = 8 && known = 6 then Arith.lit 1
    else Arith.lit 0
  .ret (mv, .OK, r)

/-- The FMU Roberts: Roberts/config.h 6-22 and the functions above;
`getNumberOfContinuousStates`, `getNumberOfEventIndicators`, model.c 160-168;
`getContinuousStates` 201-212, `getNominalsOfContinuousStates` 214-225, `setContinuousStates`
227-238, `getDerivatives` 240-251, `getEventIndicators` 253-264. Only built for FMI 3.0. -/
def model : Model F (Data F) where
  token := "{1AE5E10D-9521-4DE3-80B9-D0EAAA7D5AF2}"
  h := Arith.lit (1 / 1000000)
  maxNX := 2
  maxNZ := 2
  data0 := ⟨false, Arith.lit 0, Arith.lit 0, Arith.lit 0, Arith.lit 0, Arith.lit 0, Arith.lit 0,
    Arith.lit 0, Arith.lit 0⟩
  setStartValues := setStartValues
  calculateValues := fun _ mv => .ret (calcValues mv, .OK, ())
  get := fun t => match t with
    | .float64 => getFloat64
    | .boolean => getBoolean
    | t => getStub t
  set := fun t => match t with
    | .float64 => setFloat64
    | .boolean => setBoolean
    | t => setStub t
  numContinuousStates := fun _ => 2
  numEventIndicators := fun _ => 2
  getContinuousStates := fun ctx mv p n => putVector ctx mv (calcValues mv) p n [mv.data.y1, mv.data.y2]
  getNominals := fun ctx mv p n =>
    putVector ctx mv (calcValues mv) p n [Arith.lit (1 / 10000), Arith.lit (1 / 100)]
  setContinuousStates := fun ctx mv p n =>
    takeVector ctx mv p n 2 fun l =>
      { mv.data with y1 := l.getD 0 mv.data.y1, y2 := l.getD 1 mv.data.y2 }
  getDerivatives := fun ctx mv p n =>
    putVector ctx mv (calcValues mv) p n [(calcValues mv).data.der_y1, (calcValues mv).data.der_y2]
  getEventIndicators := fun ctx mv p n =>
    putVector ctx mv (calcValues mv) p n
      [mv.data.y1 -. Arith.lit (1 / 10000), (calcValues mv).data.y3 -. Arith.lit (1 / 100)]
  getPartialDerivative := getPartialDerivative

end Verif.Roberts
