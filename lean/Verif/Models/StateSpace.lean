import Verif.Core

/-! # StateSpace: `StateSpace/model.c`, `StateSpace/config.h` (FMI 3.0 only) -/

namespace Verif.StateSpace
open Verif

/-- `ModelData`, StateSpace/config.h 43-56. The arrays are total functions of the indices; an
access beyond the 5 (by 5) elements of the C arrays is an access with a dimension greater than
5, see `inBounds`. -/
structure Data (F : Type) where
  m : Nat
  n : Nat
  r : Nat
  A : Nat → Nat → F
  B : Nat → Nat → F
  C : Nat → Nat → F
  D : Nat → Nat → F
  x0 : Nat → F
  u : Nat → F
  y : Nat → F
  x : Nat → F
  der_x : Nat → F

variable {F : Type} [Arith F]

/-- `M_MAX`, `N_MAX`, `R_MAX`, StateSpace/config.h 23-25 -/
def maxDim : Nat := 5

/-- All loops bounded by the dimensions stay within the arrays. The arrays are declared in StateSpace/config.h 43-56. -/
def inBounds (d : Data F) : Bool := d.m ≤ maxDim && d.n ≤ maxDim && d.r ≤ maxDim

/-- Run a loop bounded by the dimensions: undefined if it would leave the arrays.
Simplification: also treated as undefined if the dimension that is too large does not occur in
this very loop. The loops are StateSpace/model.c 42-76, 81-229, 318-384. -/
def guarded {β : Type} (d : Data F) (k : Outcome β) : Outcome β := if inBounds d then k else .ub

/-- Entries of an identity matrix, StateSpace/model.c 15-18 -/
def ident (i j : Nat) : F := if i = j then Arith.lit 1 else Arith.lit 0

/-- `setStartValues`, StateSpace/model.c 5-37. Simplification: the arrays are filled beyond
index 4 as well, which no in-bounds access can see. `x[i] = x0[i]` is overwritten by `0`. -/
def setStartValues (_ : Ctx F) (mv : MV F (Data F)) : MV F (Data F) :=
  { mv with
    data := { mv.data with
      m := 3, n := 3, r := 3
      A := ident, B := ident, C := ident, D := ident
      u := fun i => Arith.lit ((i + 1 : Nat) : Rat)
      y := fun _ => Arith.lit 0
      x := fun _ => Arith.lit 0 }
    isDirtyValues := true }

/-- `for (j = 0; j < n; j++) acc += f(j);`. StateSpace/model.c 47-49, 54-56, 64-66, 71-73. -/
def accum (acc : F) (f : Nat → F) : Nat → F
  | 0 => acc
  | n + 1 => accum acc f n +. f n

/-- The assignments of `calculateValues`, StateSpace/model.c 42-76. The second loop nest (B u)
runs to `r`, not to `m`. -/
def calcValues (mv : MV F (Data F)) : MV F (Data F) :=
  let d := mv.data
  { mv with
    data := { d with
      der_x := fun i => if i < d.n then
        accum (accum (Arith.lit 0) (fun j => d.A i j *. d.x j) d.n) (fun j => d.B i j *. d.u j) d.r
        else d.der_x i
      y := fun i => if i < d.r then
        accum (accum (Arith.lit 0) (fun j => d.C i j *. d.x j) d.n) (fun j => d.D i j *. d.u j) d.m
        else d.y i }
    isDirtyValues := false }

/-- `calculateValues`, StateSpace/model.c 39-79 -/
def calculateValues (mv : MV F (Data F)) : Outcome (MV F (Data F)) :=
  guarded mv.data (.ret (calcValues mv))

/-- The elements of a matrix in the order in which the loops visit them. StateSpace/model.c 95-99 and the other matrices. -/
def entries (rows cols : Nat) (M : Nat → Nat → F) : List F :=
  (List.range rows).flatMap fun i => (List.range cols).map fun j => M i j

/-- The elements of a vector in the order in which the loops visit them. StateSpace/model.c 127-129 and the other vectors. -/
def elems (n : Nat) (v : Nat → F) : List F := (List.range n).map v

/-- `ASSERT_NVALUES(N); for ... values[(*index)++] = ...; return OK;`. The cases of StateSpace/model.c 93-155. -/
def putBlock (ctx : Ctx F) (mv : MV F (Data F)) (values : Ptr F) (nValues index : Nat)
    (l : List F) : MRes F (Data F) (Ptr F × Nat) :=
  assertNValues ctx mv l.length nValues index (values, index) <|
  writeN values index l >>- fun p => .ret (mv, .OK, (p, index + l.length))

/-- `getFloat64`, StateSpace/model.c 81-159; value references from config.h 27-41 -/
def getFloat64 (ctx : Ctx F) (mv : MV F (Data F)) (vr : Nat) (values : Ptr F)
    (nValues index : Nat) : MRes F (Data F) (Ptr F × Nat) :=
  assertNotNull ctx mv values (values, index) <|
  calculateValues mv >>- fun mv =>
  let d := mv.data
  match vr with
  | 0 => putScalar ctx mv values nValues index ctx.time
  | 4 => putBlock ctx mv values nValues index (entries d.n d.n d.A)
  | 5 => putBlock ctx mv values nValues index (entries d.m d.n d.B)
  | 6 => putBlock ctx mv values nValues index (entries d.r d.n d.C)
  | 7 => putBlock ctx mv values nValues index (entries d.r d.m d.D)
  | 8 => putBlock ctx mv values nValues index (elems d.n d.x0)
  | 9 => putBlock ctx mv values nValues index (elems d.m d.u)
  | 10 => putBlock ctx mv values nValues index (elems d.r d.y)
  | 11 => putBlock ctx mv values nValues index (elems d.n d.x)
  | 12 => putBlock ctx mv values nValues index (elems d.n d.der_x)
  | _ => failM ctx mv "Get Float64 is not allowed for value reference %u." (values, index)

/-- Overwrite the leading `rows` by `cols` block of a matrix with `l`, row by row. The loops of StateSpace/model.c 167-198. -/
def fillMatrix (rows cols : Nat) (l : List F) (M : Nat → Nat → F) : Nat → Nat → F :=
  fun i j => if i < rows ∧ j < cols then l.getD (i * cols + j) (M i j) else M i j

/-- Overwrite the first `n` elements of a vector with `l`. The loops of StateSpace/model.c 199-220, 359-361. -/
def fillVector (n : Nat) (l : List F) (v : Nat → F) : Nat → F :=
  fun i => if i < n then l.getD i (v i) else v i

/-- `ASSERT_NVALUES(N); for ... M(..) = values[(*index)++]; ... isDirtyValues = true;`. The cases of StateSpace/model.c 167-220. -/
def takeBlock (ctx : Ctx F) (mv : MV F (Data F)) (values : Ptr F) (nValues index n : Nat)
    (upd : List F → Data F) : MRes F (Data F) Nat :=
  assertNValues ctx mv n nValues index index <|
  guarded mv.data <|
  readN values index n >>- fun l =>
  .ret ({ mv with data := upd l, isDirtyValues := true }, .OK, index + n)

/-- `setFloat64`, StateSpace/model.c 161-229 -/
def setFloat64 (ctx : Ctx F) (mv : MV F (Data F)) (vr : Nat) (values : Ptr F)
    (nValues index : Nat) : MRes F (Data F) Nat :=
  assertNotNull ctx mv values index <|
  let d := mv.data
  match vr with
  | 4 => takeBlock ctx mv values nValues index (d.n * d.n) fun l =>
      { d with A := fillMatrix d.n d.n l d.A }
  | 5 => takeBlock ctx mv values nValues index (d.n * d.m) fun l =>
      { d with B := fillMatrix d.n d.m l d.B }
  | 6 => takeBlock ctx mv values nValues index (d.r * d.n) fun l =>
      { d with C := fillMatrix d.r d.n l d.C }
  | 7 => takeBlock ctx mv values nValues index (d.r * d.m) fun l =>
      { d with D := fillMatrix d.r d.m l d.D }
  | 8 => takeBlock ctx mv values nValues index d.n fun l => { d with x0 := fillVector d.n l d.x0 }
  | 9 => takeBlock ctx mv values nValues index d.m fun l => { d with u := fillVector d.m l d.u }
  | 11 =>
    if ctx.state ≠ .continuousTimeMode && ctx.state ≠ .eventMode then
      failM ctx mv "Variable \"x\" can only be set in Continuous Time Mode and Event Mode." index
    else takeBlock ctx mv values nValues index d.n fun l => { d with x := fillVector d.n l d.x }
  | _ => failM ctx mv "Set Float64 is not allowed for value reference %u." index

/-- `getUInt64`, StateSpace/model.c 231-253 -/
def getUInt64 (ctx : Ctx F) (mv : MV F (Data F)) (vr : Nat) (values : Ptr Int)
    (nValues index : Nat) : MRes F (Data F) (Ptr Int × Nat) :=
  assertNotNull ctx mv values (values, index) <|
  match vr with
  | 1 => putScalar ctx mv values nValues index (mv.data.m : Int)
  | 2 => putScalar ctx mv values nValues index (mv.data.n : Int)
  | 3 => putScalar ctx mv values nValues index (mv.data.r : Int)
  | _ => failM ctx mv "Get UInt64 is not allowed for value reference %u." (values, index)

/-- `setUInt64`, StateSpace/model.c 255-300. `index` is advanced before `ASSERT_NVALUES(1)`.
The values are `uint64_t`; a negative number stands for no value of that type and is mapped
to 0. -/
def setUInt64 (ctx : Ctx F) (mv : MV F (Data F)) (vr : Nat) (values : Ptr Int)
    (nValues index : Nat) : MRes F (Data F) Nat :=
  assertNotNull ctx mv values index <|
  if ctx.state ≠ .configurationMode && ctx.state ≠ .reconfigurationMode then
    failM ctx mv "Structural variables can only be set in Configuration Mode or Reconfiguration Mode." index
  else
    values.read index >>- fun v =>
    let v := v.toNat
    let index := index + 1
    let fin (d : Data F) : MRes F (Data F) Nat :=
      assertNValues ctx mv 1 nValues index index <|
      .ret ({ mv with data := d, isDirtyValues := true }, .OK, index)
    match vr with
    | 1 => if v > maxDim then failM ctx mv "Variable m must not be greater than 5." index
      else fin { mv.data with m := v }
    | 2 => if v > maxDim then failM ctx mv "Variable n must not be greater than 5." index
      else fin { mv.data with n := v }
    | 3 => if v > maxDim then failM ctx mv "Variable r must not be greater than 5." index
      else fin { mv.data with r := v }
    | _ => failM ctx mv "Set UInt64 is not allowed for value reference %u." index

/-- `eventUpdate`, StateSpace/model.c 302-311 -/
def eventUpdate (_ : Ctx F) (mv : MV F (Data F)) : MRes F (Data F) Unit :=
  .ret ({ mv with
    valuesChanged := false, nominalsChanged := false, terminateSimulation := false,
    nextEventTimeDefined := false }, .OK, ())

/-- The size check of the Model Exchange functions, e.g. StateSpace/model.c 322-325 -/
def checkNx (ctx : Ctx F) (mv : MV F (Data F)) (p : Ptr F) (nx : Nat)
    (k : MRes F (Data F) (Ptr F)) : MRes F (Data F) (Ptr F) :=
  if nx ≠ mv.data.n then failM ctx mv "Expected nx=%zu but was %zu." p else k

/-- The FMU StateSpace: StateSpace/config.h 6-21 and the functions above;
`getNumberOfContinuousStates`, model.c 313-316; `getContinuousStates` 318-332,
`getNominalsOfContinuousStates` 334-348, `setContinuousStates` 350-366, `getDerivatives`
368-384. -/
def model : Model F (Data F) where
  token := "{D773325B-AB94-4630-BF85-643EB24FCB78}"
  h := Arith.lit (1 / 1000)
  maxNX := 5
  data0 :=
    { m := 0, n := 0, r := 0, A := fun _ _ => Arith.lit 0, B := fun _ _ => Arith.lit 0
      C := fun _ _ => Arith.lit 0, D := fun _ _ => Arith.lit 0, x0 := fun _ => Arith.lit 0
      u := fun _ => Arith.lit 0, y := fun _ => Arith.lit 0, x := fun _ => Arith.lit 0
      der_x := fun _ => Arith.lit 0 }
  setStartValues := setStartValues
  calculateValues := fun _ mv => calculateValues mv >>- fun mv => .ret (mv, .OK, ())
  get := fun t => match t with
    | .float64 => getFloat64
    | .uint64 => getUInt64
    | t => getStub t
  set := fun t => match t with
    | .float64 => setFloat64
    | .uint64 => setUInt64
    | t => setStub t
  eventUpdate := some eventUpdate
  numContinuousStates := fun mv => mv.data.n
  getContinuousStates := fun ctx mv p n =>
    assertNotNull ctx mv p p <| checkNx ctx mv p n <| guarded mv.data <|
    writeN p 0 (elems mv.data.n mv.data.x) >>- fun p => .ret (mv, .OK, p)
  getNominals := fun ctx mv p n =>
    assertNotNull ctx mv p p <| checkNx ctx mv p n <|
    writeN p 0 (elems mv.data.n fun _ => Arith.lit 1) >>- fun p => .ret (mv, .OK, p)
  setContinuousStates := fun ctx mv p n =>
    assertNotNull ctx mv p p <| checkNx ctx mv p n <| guarded mv.data <|
    readN p 0 mv.data.n >>- fun l =>
    .ret ({ mv with
      data := { mv.data with x := fillVector mv.data.n l mv.data.x }, isDirtyValues := true },
      .OK, p)
  getDerivatives := fun ctx mv p n =>
    assertNotNull ctx mv p p <| checkNx ctx mv p n <|
    calculateValues mv >>- fun mv =>
    writeN p 0 (elems mv.data.n mv.data.der_x) >>- fun p => .ret (mv, .OK, p)

end Verif.StateSpace
