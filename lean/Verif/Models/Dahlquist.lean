import Verif.Core

/-! # Dahlquist: `Dahlquist/model.c`, `Dahlquist/config.h` -/

namespace Verif.Dahlquist
open Verif

/-- `ModelData`, Dahlquist/config.h 22-28 -/
structure Data (F : Type) where
  x : F
  der_x : F
  k : F
  deriving DecidableEq, Repr

variable {F : Type} [Arith F]

/-- `setStartValues`, Dahlquist/model.c 5-14 -/
def setStartValues (_ : Ctx F) (mv : MV F (Data F)) : MV F (Data F) :=
  { mv with data := { mv.data with x := Arith.lit 1, k := Arith.lit 1 }, isDirtyValues := true }

/-- `calculateValues`, Dahlquist/model.c 16-24 -/
def calcValues (mv : MV F (Data F)) : MV F (Data F) :=
  { mv with
    data := { mv.data with der_x := Arith.neg mv.data.k *. mv.data.x }
    isDirtyValues := false }

/-- `getFloat64`, Dahlquist/model.c 26-54; value references from config.h 18-20 -/
def getFloat64 (ctx : Ctx F) (mv : MV F (Data F)) (vr : Nat) (values : Ptr F)
    (nValues index : Nat) : MRes F (Data F) (Ptr F × Nat) :=
  assertNotNull ctx mv values (values, index) <|
  let mv := calcValues mv
  let d := mv.data
  match vr with
  | 0 => putScalar ctx mv values nValues index ctx.time
  | 1 => putScalar ctx mv values nValues index d.x
  | 2 => putScalar ctx mv values nValues index d.der_x
  | 3 => putScalar ctx mv values nValues index d.k
  | _ => failM ctx mv "Get Float64 is not allowed for value reference %u." (values, index)

/-- `setFloat64`, Dahlquist/model.c 56-84 -/
def setFloat64 (ctx : Ctx F) (mv : MV F (Data F)) (vr : Nat) (values : Ptr F)
    (nValues index : Nat) : MRes F (Data F) Nat :=
  assertNotNull ctx mv values index <|
  let d := mv.data
  match vr with
  | 1 => takeScalar ctx mv values nValues index fun v => { d with x := v }
  | 3 =>
    if ctx.typ = .modelExchange && ctx.state ≠ .instantiated && ctx.state ≠ .initializationMode then
      failM ctx mv "Variable k can only be set after instantiation or in initialization mode." index
    else takeScalar ctx mv values nValues index fun v => { d with k := v }
  | _ => failM ctx mv "Set Float64 is not allowed for value reference %u." index

/-- The FMU Dahlquist: Dahlquist/config.h 5-16 and the functions above;
`getNumberOfContinuousStates`, model.c 86-89; `getContinuousStates` 91-101,
`getNominalsOfContinuousStates` 103-113, `setContinuousStates` 115-125, `getDerivatives`
127-137. -/
def model : Model F (Data F) where
  token := "{221063D2-EF4A-45FE-B954-B5BFEEA9A59B}"
  h := Arith.lit (1 / 10)
  maxNX := 1
  data0 := ⟨Arith.lit 0, Arith.lit 0, Arith.lit 0⟩
  setStartValues := setStartValues
  calculateValues := fun _ mv => .ret (calcValues mv, .OK, ())
  get := fun t => match t with
    | .float64 => getFloat64
    | t => getStub t
  set := fun t => match t with
    | .float64 => setFloat64
    | t => setStub t
  numContinuousStates := fun _ => 1
  getContinuousStates := fun ctx mv p n => putVector ctx mv (calcValues mv) p n [mv.data.x]
  getNominals := fun ctx mv p n => putVector ctx mv (calcValues mv) p n [Arith.lit 1]
  setContinuousStates := fun ctx mv p n =>
    takeVector ctx mv p n 1 fun l => { mv.data with x := l.getD 0 mv.data.x }
  getDerivatives := fun ctx mv p n => putVector ctx mv (calcValues mv) p n [(calcValues mv).data.der_x]

end Verif.Dahlquist
