import Verif.Core

/-! # VanDerPol: `VanDerPol/model.c`, `VanDerPol/config.h` -/

namespace Verif.VanDerPol
open Verif

/-- `ModelData`, VanDerPol/config.h 24-32 -/
structure Data (F : Type) where
  x0 : F
  der_x0 : F
  x1 : F
  der_x1 : F
  mu : F
  deriving DecidableEq, Repr

variable {F : Type} [Arith F]

/-- `setStartValues`, VanDerPol/model.c 5-15 -/
def setStartValues (_ : Ctx F) (mv : MV F (Data F)) : MV F (Data F) :=
  { mv with
    data := { mv.data with x0 := Arith.lit 2, x1 := Arith.lit 0, mu := Arith.lit 1 }
    isDirtyValues := true }

/-- `calculateValues`, VanDerPol/model.c 17-26 -/
def calcValues (mv : MV F (Data F)) : MV F (Data F) :=
  let d := mv.data
  { mv with
    data := { d with
      der_x0 := d.x1
      der_x1 := d.mu *. ((Arith.lit 1 -. d.x0 *. d.x0) *. d.x1) -. d.x0 }
    isDirtyValues := false }

/-- `getFloat64`, VanDerPol/model.c 28-64; value references from config.h 20-22 -/
def getFloat64 (ctx : Ctx F) (mv : MV F (Data F)) (vr : Nat) (values : Ptr F)
    (nValues index : Nat) : MRes F (Data F) (Ptr F × Nat) :=
  assertNotNull ctx mv values (values, index) <|
  let mv := calcValues mv
  let d := mv.data
  match vr with
  | 0 => putScalar ctx mv values nValues index ctx.time
  | 1 => putScalar ctx mv values nValues index d.x0
  | 2 => putScalar ctx mv values nValues index d.der_x0
  | 3 => putScalar ctx mv values nValues index d.x1
  | 4 => putScalar ctx mv values nValues index d.der_x1
  | 5 => putScalar ctx mv values nValues index d.mu
  | _ => failM ctx mv "Get Float64 is not allowed for value reference %u." (values, index)

/-- `setFloat64`, VanDerPol/model.c 66-99 -/
def setFloat64 (ctx : Ctx F) (mv : MV F (Data F)) (vr : Nat) (values : Ptr F)
    (nValues index : Nat) : MRes F (Data F) Nat :=
  assertNotNull ctx mv values index <|
  let d := mv.data
  match vr with
  | 1 => takeScalar ctx mv values nValues index fun v => { d with x0 := v }
  | 3 => takeScalar ctx mv values nValues index fun v => { d with x1 := v }
  | 5 =>
    if ctx.typ = .modelExchange && ctx.state ≠ .instantiated && ctx.state ≠ .initializationMode
        && ctx.state ≠ .eventMode then
      failM ctx mv "Variable mu can only be set after instantiation, in initialization mode or event mode." index
    else takeScalar ctx mv values nValues index fun v => { d with mu := v }
  | _ => failM ctx mv "Set Float64 is not allowed for value reference %u." index

/-- `getPartialDerivative`, VanDerPol/model.c 158-177. The output pointer is non-NULL, because
the callers pass the address of a local variable. -/
def getPartialDerivative (ctx : Ctx F) (mv : MV F (Data F)) (unknown known : Nat) (_ : F) :
    MRes F (Data F) F :=
  let d := mv.data
  let r : F :=
    if unknown = 2 && known = 1 then Arith.lit 0
    else if unknown = 2 && known = 3 then Arith.lit 1
    else if unknown = 4 && known = 1 then
      Arith.lit (-2) *. d.x0 *. d.x1 *. d.mu -. Arith.lit 1
    else if unknown = 4 && known = 3 then d.mu *. (Arith.lit 1 -. d.x0 *. d.x0)
    else if unknown = 4 && known = 5 && ctx.state = .initializationMode then
      (Arith.lit 1 -. d.x0 *. d.x0) *. d.x1
    else Arith.lit 0
  .ret (mv, .OK, r)

/-- The FMU VanDerPol: VanDerPol/config.h 5-18 and the functions above;
`getNumberOfContinuousStates`, model.c 101-104; `getContinuousStates` 106-117,
`getNominalsOfContinuousStates` 119-130, `setContinuousStates` 132-143, `getDerivatives`
145-156. `eventUpdate` (179-188) is not part of the FMU since `EVENT_UPDATE` is not defined. -/
def model : Model F (Data F) where
  token := "{BD403596-3166-4232-ABC2-132BDF73E644}"
  h := Arith.lit (1 / 100)
  maxNX := 2
  data0 := ⟨Arith.lit 0, Arith.lit 0, Arith.lit 0, Arith.lit 0, Arith.lit 0⟩
  setStartValues := setStartValues
  calculateValues := fun _ mv => .ret (calcValues mv, .OK, ())
  get := fun t => match t with
    | .float64 => getFloat64
    | t => getStub t
  set := fun t => match t with
    | .float64 => setFloat64
    | t => setStub t
  numContinuousStates := fun _ => 2
  getContinuousStates := fun ctx mv p n => putVector ctx mv (calcValues mv) p n [mv.data.x0, mv.data.x1]
  getNominals := fun ctx mv p n => putVector ctx mv (calcValues mv) p n [Arith.lit 1, Arith.lit 1]
  setContinuousStates := fun ctx mv p n =>
    takeVector ctx mv p n 2 fun l =>
      { mv.data with x0 := l.getD 0 mv.data.x0, x1 := l.getD 1 mv.data.x1 }
  getDerivatives := fun ctx mv p n =>
    putVector ctx mv (calcValues mv) p n [(calcValues mv).data.der_x0, (calcValues mv).data.der_x1]
  getPartialDerivative := getPartialDerivative

end Verif.VanDerPol
