import Verif.Core

/-! # Feedthrough: `Feedthrough/model.c`, `Feedthrough/config.h`

`ver3` says whether the code is compiled with `FMI_VERSION == 3`; the enumeration is an Int32
variable in FMI 2 and an Int64 variable in FMI 3. -/

namespace Verif.Feedthrough
open Verif

/-- `ModelData`, Feedthrough/config.h 110-162. Strings are the bytes before the terminator (at
most 127, since `setString` checks it); a binary variable is the stored bytes (the C code keeps them in
an array of 128 bytes together with their number; bytes beyond that number are never read). `enumIn`, `enumOut` are `int` values of the enum. -/
structure Data (F : Type) where
  f32ContIn : UInt32
  f32ContOut : UInt32
  f32DiscIn : UInt32
  f32DiscOut : UInt32
  fixedParam : F
  tunableParam : F
  f64ContIn : F
  f64ContOut : F
  f64DiscIn : F
  f64DiscOut : F
  int8In : Int
  int8Out : Int
  uint8In : Int
  uint8Out : Int
  int16In : Int
  int16Out : Int
  uint16In : Int
  uint16Out : Int
  int32In : Int
  int32Out : Int
  uint32In : Int
  uint32Out : Int
  int64In : Int
  int64Out : Int
  uint64In : Int
  uint64Out : Int
  boolIn : Bool
  boolOut : Bool
  strIn : List UInt8
  strOut : List UInt8
  binIn : List UInt8
  binOut : List UInt8
  enumIn : Int
  enumOut : Int
  deriving DecidableEq, Repr

/-- ASCII bytes of a string literal. For the literals in Feedthrough/model.c 10-11. -/
def ascii (s : String) : List UInt8 := s.toList.map fun c => c.toNat.toUInt8

/-- `STRING_MAX_LEN`, `BINARY_MAX_LEN`, Feedthrough/config.h 48-49 -/
def maxLen : Nat := 128

variable {F : Type} [Arith F]

/-- The data after `setStartValues`. Feedthrough/model.c 13-69. -/
def startData : Data F where
  f32ContIn := 0
  f32ContOut := 0
  f32DiscIn := 0
  f32DiscOut := 0
  fixedParam := Arith.lit 0
  tunableParam := Arith.lit 0
  f64ContIn := Arith.lit 0
  f64ContOut := Arith.lit 0
  f64DiscIn := Arith.lit 0
  f64DiscOut := Arith.lit 0
  int8In := 0
  int8Out := 0
  uint8In := 0
  uint8Out := 0
  int16In := 0
  int16Out := 0
  uint16In := 0
  uint16Out := 0
  int32In := 0
  int32Out := 0
  uint32In := 0
  uint32Out := 0
  int64In := 0
  int64Out := 0
  uint64In := 0
  uint64Out := 0
  boolIn := false
  boolOut := false
  strIn := ascii "Set me!"
  strOut := ascii "Set me!"
  binIn := ascii "foo"
  binOut := ascii "foo"
  enumIn := 1
  enumOut := 1

/-- `setStartValues`, Feedthrough/model.c 13-69 -/
def setStartValues (_ : Ctx F) (mv : MV F (Data F)) : MV F (Data F) :=
  { mv with data := startData, isDirtyValues := true }

/-- `calculateValues`, Feedthrough/model.c 71-107 -/
def calcValues (mv : MV F (Data F)) : MV F (Data F) :=
  let d := mv.data
  { mv with
    data := { d with
      f32ContOut := d.f32ContIn
      f32DiscOut := d.f32DiscIn
      f64ContOut := d.f64ContIn
      f64DiscOut := d.f64DiscIn
      int8Out := d.int8In
      uint8Out := d.uint8In
      int16Out := d.int16In
      uint16Out := d.uint16In
      int32Out := d.int32In
      uint32Out := d.uint32In
      int64Out := d.int64In
      uint64Out := d.uint64In
      boolOut := d.boolIn
      strOut := d.strIn
      binOut := d.binIn
      enumOut := d.enumIn }
    isDirtyValues := false }

/-- `getFloat32`, Feedthrough/model.c 109-139 -/
def getFloat32 (ctx : Ctx F) (mv : MV F (Data F)) (vr : Nat) (values : Ptr UInt32)
    (nValues index : Nat) : MRes F (Data F) (Ptr UInt32 × Nat) :=
  assertNotNull ctx mv values (values, index) <|
  let mv := calcValues mv
  let d := mv.data
  match vr with
  | 1 => putScalar ctx mv values nValues index d.f32ContIn
  | 2 => putScalar ctx mv values nValues index d.f32ContOut
  | 3 => putScalar ctx mv values nValues index d.f32DiscIn
  | 4 => putScalar ctx mv values nValues index d.f32DiscOut
  | _ => failM ctx mv "Get Float32 is not allowed for value reference %u." (values, index)

/-- `getFloat64`, Feedthrough/model.c 141-183 -/
def getFloat64 (ctx : Ctx F) (mv : MV F (Data F)) (vr : Nat) (values : Ptr F)
    (nValues index : Nat) : MRes F (Data F) (Ptr F × Nat) :=
  assertNotNull ctx mv values (values, index) <|
  let mv := calcValues mv
  let d := mv.data
  match vr with
  | 0 => putScalar ctx mv values nValues index ctx.time
  | 5 => putScalar ctx mv values nValues index d.fixedParam
  | 6 => putScalar ctx mv values nValues index d.tunableParam
  | 7 => putScalar ctx mv values nValues index d.f64ContIn
  | 8 => putScalar ctx mv values nValues index d.f64ContOut
  | 9 => putScalar ctx mv values nValues index d.f64DiscIn
  | 10 => putScalar ctx mv values nValues index d.f64DiscOut
  | _ => failM ctx mv "Get Float64 is not allowed for value reference %u." (values, index)

/-- `getInt8`, Feedthrough/model.c 185-207 -/
def getInt8 (ctx : Ctx F) (mv : MV F (Data F)) (vr : Nat) (values : Ptr Int)
    (nValues index : Nat) : MRes F (Data F) (Ptr Int × Nat) :=
  assertNotNull ctx mv values (values, index) <|
  let mv := calcValues mv
  let d := mv.data
  match vr with
  | 11 => putScalar ctx mv values nValues index d.int8In
  | 12 => putScalar ctx mv values nValues index d.int8Out
  | _ => failM ctx mv "Get Int8 is not allowed for value reference %u." (values, index)

/-- `getUInt8`, Feedthrough/model.c 209-231 -/
def getUInt8 (ctx : Ctx F) (mv : MV F (Data F)) (vr : Nat) (values : Ptr Int)
    (nValues index : Nat) : MRes F (Data F) (Ptr Int × Nat) :=
  assertNotNull ctx mv values (values, index) <|
  let mv := calcValues mv
  let d := mv.data
  match vr with
  | 13 => putScalar ctx mv values nValues index d.uint8In
  | 14 => putScalar ctx mv values nValues index d.uint8Out
  | _ => failM ctx mv "Get UInt8 is not allowed for value reference %u." (values, index)

/-- `getInt16`, Feedthrough/model.c 233-255 -/
def getInt16 (ctx : Ctx F) (mv : MV F (Data F)) (vr : Nat) (values : Ptr Int)
    (nValues index : Nat) : MRes F (Data F) (Ptr Int × Nat) :=
  assertNotNull ctx mv values (values, index) <|
  let mv := calcValues mv
  let d := mv.data
  match vr with
  | 15 => putScalar ctx mv values nValues index d.int16In
  | 16 => putScalar ctx mv values nValues index d.int16Out
  | _ => failM ctx mv "Get Int16 is not allowed for value reference %u." (values, index)

/-- `getUInt16`, Feedthrough/model.c 257-279 -/
def getUInt16 (ctx : Ctx F) (mv : MV F (Data F)) (vr : Nat) (values : Ptr Int)
    (nValues index : Nat) : MRes F (Data F) (Ptr Int × Nat) :=
  assertNotNull ctx mv values (values, index) <|
  let mv := calcValues mv
  let d := mv.data
  match vr with
  | 17 => putScalar ctx mv values nValues index d.uint16In
  | 18 => putScalar ctx mv values nValues index d.uint16Out
  | _ => failM ctx mv "Get UInt16 is not allowed for value reference %u." (values, index)

/-- `getInt32`, Feedthrough/model.c 281-313 -/
def getInt32 (ver3 : Bool) (ctx : Ctx F) (mv : MV F (Data F)) (vr : Nat) (values : Ptr Int)
    (nValues index : Nat) : MRes F (Data F) (Ptr Int × Nat) :=
  assertNotNull ctx mv values (values, index) <|
  let mv := calcValues mv
  let d := mv.data
  match vr with
  | 19 => putScalar ctx mv values nValues index d.int32In
  | 20 => putScalar ctx mv values nValues index d.int32Out
  | 33 => if !ver3 then putScalar ctx mv values nValues index d.enumIn
    else failM ctx mv "Get Int32 is not allowed for value reference %u." (values, index)
  | 34 => if !ver3 then putScalar ctx mv values nValues index d.enumOut
    else failM ctx mv "Get Int32 is not allowed for value reference %u." (values, index)
  | _ => failM ctx mv "Get Int32 is not allowed for value reference %u." (values, index)

/-- `getUInt32`, Feedthrough/model.c 315-337 -/
def getUInt32 (ctx : Ctx F) (mv : MV F (Data F)) (vr : Nat) (values : Ptr Int)
    (nValues index : Nat) : MRes F (Data F) (Ptr Int × Nat) :=
  assertNotNull ctx mv values (values, index) <|
  let mv := calcValues mv
  let d := mv.data
  match vr with
  | 21 => putScalar ctx mv values nValues index d.uint32In
  | 22 => putScalar ctx mv values nValues index d.uint32Out
  | _ => failM ctx mv "Get UInt32 is not allowed for value reference %u." (values, index)

/-- `getInt64`, Feedthrough/model.c 339-371 -/
def getInt64 (ver3 : Bool) (ctx : Ctx F) (mv : MV F (Data F)) (vr : Nat) (values : Ptr Int)
    (nValues index : Nat) : MRes F (Data F) (Ptr Int × Nat) :=
  assertNotNull ctx mv values (values, index) <|
  let mv := calcValues mv
  let d := mv.data
  match vr with
  | 23 => putScalar ctx mv values nValues index d.int64In
  | 24 => putScalar ctx mv values nValues index d.int64Out
  | 33 => if ver3 then putScalar ctx mv values nValues index d.enumIn
    else failM ctx mv "Get Int64 is not allowed for value reference %u." (values, index)
  | 34 => if ver3 then putScalar ctx mv values nValues index d.enumOut
    else failM ctx mv "Get Int64 is not allowed for value reference %u." (values, index)
  | _ => failM ctx mv "Get Int64 is not allowed for value reference %u." (values, index)

/-- `getUInt64`, Feedthrough/model.c 373-395 -/
def getUInt64 (ctx : Ctx F) (mv : MV F (Data F)) (vr : Nat) (values : Ptr Int)
    (nValues index : Nat) : MRes F (Data F) (Ptr Int × Nat) :=
  assertNotNull ctx mv values (values, index) <|
  let mv := calcValues mv
  let d := mv.data
  match vr with
  | 25 => putScalar ctx mv values nValues index d.uint64In
  | 26 => putScalar ctx mv values nValues index d.uint64Out
  | _ => failM ctx mv "Get UInt64 is not allowed for value reference %u." (values, index)

/-- `getBoolean`, Feedthrough/model.c 397-419 -/
def getBoolean (ctx : Ctx F) (mv : MV F (Data F)) (vr : Nat) (values : Ptr Bool)
    (nValues index : Nat) : MRes F (Data F) (Ptr Bool × Nat) :=
  assertNotNull ctx mv values (values, index) <|
  let mv := calcValues mv
  let d := mv.data
  match vr with
  | 27 => putScalar ctx mv values nValues index d.boolIn
  | 28 => putScalar ctx mv values nValues index d.boolOut
  | _ => failM ctx mv "Get Boolean is not allowed for value reference %u." (values, index)

/-- `getBinary`, Feedthrough/model.c 421-445 -/
def getBinary (ctx : Ctx F) (mv : MV F (Data F)) (vr : Nat) (values : Ptr CBinary)
    (nValues index : Nat) : MRes F (Data F) (Ptr CBinary × Nat) :=
  assertNotNull ctx mv values (values, index) <|
  let mv := calcValues mv
  let d := mv.data
  match vr with
  | 31 => putScalar ctx mv values nValues index ⟨d.binIn.length, some d.binIn⟩
  | 32 => putScalar ctx mv values nValues index ⟨d.binOut.length, some d.binOut⟩
  | _ => failM ctx mv "Get Binary is not allowed for value reference %u." (values, index)

/-- `getString`, Feedthrough/model.c 447-469 -/
def getString (ctx : Ctx F) (mv : MV F (Data F)) (vr : Nat) (values : Ptr (Ptr UInt8))
    (nValues index : Nat) : MRes F (Data F) (Ptr (Ptr UInt8) × Nat) :=
  assertNotNull ctx mv values (values, index) <|
  let mv := calcValues mv
  let d := mv.data
  match vr with
  | 29 => putScalar ctx mv values nValues index (some d.strIn)
  | 30 => putScalar ctx mv values nValues index (some d.strOut)
  | _ => failM ctx mv "Get String is not allowed for value reference %u." (values, index)

/-- In Model Exchange, discrete inputs and tunable parameters may only be set in these modes,
Feedthrough/model.c 482-485, 521-524, 538-541. -/
def eventSettable (ctx : Ctx F) : Bool :=
  !(ctx.typ = .modelExchange && ctx.state ≠ .instantiated && ctx.state ≠ .initializationMode
    && ctx.state ≠ .eventMode)

/-- In Model Exchange, fixed parameters may only be set in these modes, Feedthrough/model.c
510-512. -/
def fixedSettable (ctx : Ctx F) : Bool :=
  !(ctx.typ = .modelExchange && ctx.state ≠ .instantiated && ctx.state ≠ .initializationMode)

/-- `setFloat32`, Feedthrough/model.c 471-500 -/
def setFloat32 (ctx : Ctx F) (mv : MV F (Data F)) (vr : Nat) (values : Ptr UInt32)
    (nValues index : Nat) : MRes F (Data F) Nat :=
  assertNotNull ctx mv values index <|
  let d := mv.data
  match vr with
  | 1 => takeScalar ctx mv values nValues index fun v => { d with f32ContIn := v }
  | 3 =>
    if !eventSettable ctx then
      failM ctx mv "Variable Float32_discrete_input can only be set in after instantiation, in Initialization Mode, and in Event Mode." index
    else takeScalar ctx mv values nValues index fun v => { d with f32DiscIn := v }
  | _ => failM ctx mv "Set Float32 is not allowed for value reference %u." index

/-- `setFloat64`, Feedthrough/model.c 502-557 -/
def setFloat64 (ctx : Ctx F) (mv : MV F (Data F)) (vr : Nat) (values : Ptr F)
    (nValues index : Nat) : MRes F (Data F) Nat :=
  assertNotNull ctx mv values index <|
  let d := mv.data
  match vr with
  | 5 =>
    if !fixedSettable ctx then
      failM ctx mv "Variable Float64_fixed_parameter can only be set after instantiation or in initialization mode." index
    else takeScalar ctx mv values nValues index fun v => { d with fixedParam := v }
  | 6 =>
    if !eventSettable ctx then
      failM ctx mv "Variable Float64_tunable_parameter can only be set after instantiation, in initialization mode or event mode." index
    else takeScalar ctx mv values nValues index fun v => { d with tunableParam := v }
  | 7 => takeScalar ctx mv values nValues index fun v => { d with f64ContIn := v }
  | 9 =>
    if !eventSettable ctx then
      failM ctx mv "Variable Float64_discrete_input can only be set after instantiation, in initialization mode or event mode." index
    else takeScalar ctx mv values nValues index fun v => { d with f64DiscIn := v }
  | _ => failM ctx mv "Set Float64 is not allowed for value reference %u." index

/-- `setInt8`, Feedthrough/model.c 559-577 -/
def setInt8 (ctx : Ctx F) (mv : MV F (Data F)) (vr : Nat) (values : Ptr Int)
    (nValues index : Nat) : MRes F (Data F) Nat :=
  assertNotNull ctx mv values index <|
  let d := mv.data
  match vr with
  | 11 => takeScalar ctx mv values nValues index fun v => { d with int8In := v }
  | _ => failM ctx mv "Set Int8 is not allowed for value reference %u." index

/-- `setUInt8`, Feedthrough/model.c 579-597 -/
def setUInt8 (ctx : Ctx F) (mv : MV F (Data F)) (vr : Nat) (values : Ptr Int)
    (nValues index : Nat) : MRes F (Data F) Nat :=
  assertNotNull ctx mv values index <|
  let d := mv.data
  match vr with
  | 13 => takeScalar ctx mv values nValues index fun v => { d with uint8In := v }
  | _ => failM ctx mv "Set UInt8 is not allowed for value reference %u." index

/-- `setInt16`, Feedthrough/model.c 599-617 -/
def setInt16 (ctx : Ctx F) (mv : MV F (Data F)) (vr : Nat) (values : Ptr Int)
    (nValues index : Nat) : MRes F (Data F) Nat :=
  assertNotNull ctx mv values index <|
  let d := mv.data
  match vr with
  | 15 => takeScalar ctx mv values nValues index fun v => { d with int16In := v }
  | _ => failM ctx mv "Set Int16 is not allowed for value reference %u." index

/-- `setUInt16`, Feedthrough/model.c 619-637 -/
def setUInt16 (ctx : Ctx F) (mv : MV F (Data F)) (vr : Nat) (values : Ptr Int)
    (nValues index : Nat) : MRes F (Data F) Nat :=
  assertNotNull ctx mv values index <|
  let d := mv.data
  match vr with
  | 17 => takeScalar ctx mv values nValues index fun v => { d with uint16In := v }
  | _ => failM ctx mv "Set UInt16 is not allowed for value reference %u." index

/-- `setInt32`, Feedthrough/model.c 639-667. For the enumeration `values[*index]` is read before the
check of `nValues`. -/
def setInt32 (ver3 : Bool) (ctx : Ctx F) (mv : MV F (Data F)) (vr : Nat) (values : Ptr Int)
    (nValues index : Nat) : MRes F (Data F) Nat :=
  assertNotNull ctx mv values index <|
  let d := mv.data
  match vr with
  | 19 => takeScalar ctx mv values nValues index fun v => { d with int32In := v }
  | 33 =>
    if !ver3 then
      values.read index >>- fun v =>
      if v ≠ 1 && v ≠ 2 then failM ctx mv "%d is not a legal value for Enumeration_input." index
      else takeScalar ctx mv values nValues index fun v => { d with enumIn := v }
    else failM ctx mv "Set Int32 is not allowed for value reference %u." index
  | _ => failM ctx mv "Set Int32 is not allowed for value reference %u." index

/-- `setUInt32`, Feedthrough/model.c 669-687 -/
def setUInt32 (ctx : Ctx F) (mv : MV F (Data F)) (vr : Nat) (values : Ptr Int)
    (nValues index : Nat) : MRes F (Data F) Nat :=
  assertNotNull ctx mv values index <|
  let d := mv.data
  match vr with
  | 21 => takeScalar ctx mv values nValues index fun v => { d with uint32In := v }
  | _ => failM ctx mv "Set UInt32 is not allowed for value reference %u." index

/-- `setInt64`, Feedthrough/model.c 689-717. For the enumeration `values[*index]` is read before the
check of `nValues`. -/
def setInt64 (ver3 : Bool) (ctx : Ctx F) (mv : MV F (Data F)) (vr : Nat) (values : Ptr Int)
    (nValues index : Nat) : MRes F (Data F) Nat :=
  assertNotNull ctx mv values index <|
  let d := mv.data
  match vr with
  | 23 => takeScalar ctx mv values nValues index fun v => { d with int64In := v }
  | 33 =>
    if ver3 then
      values.read index >>- fun v =>
      if v ≠ 1 && v ≠ 2 then failM ctx mv "%d is not a legal value for Enumeration_input." index
      else takeScalar ctx mv values nValues index fun v => { d with enumIn := v }
    else failM ctx mv "Set Int64 is not allowed for value reference %u." index
  | _ => failM ctx mv "Set Int64 is not allowed for value reference %u." index

/-- `setUInt64`, Feedthrough/model.c 719-737 -/
def setUInt64 (ctx : Ctx F) (mv : MV F (Data F)) (vr : Nat) (values : Ptr Int)
    (nValues index : Nat) : MRes F (Data F) Nat :=
  assertNotNull ctx mv values index <|
  let d := mv.data
  match vr with
  | 25 => takeScalar ctx mv values nValues index fun v => { d with uint64In := v }
  | _ => failM ctx mv "Set UInt64 is not allowed for value reference %u." index

/-- `setBoolean`, Feedthrough/model.c 739-761 -/
def setBoolean (ctx : Ctx F) (mv : MV F (Data F)) (vr : Nat) (values : Ptr Bool)
    (nValues index : Nat) : MRes F (Data F) Nat :=
  assertNotNull ctx mv values index <|
  let d := mv.data
  match vr with
  | 27 => takeScalar ctx mv values nValues index fun v => { d with boolIn := v }
  | 28 => takeScalar ctx mv values nValues index fun v => { d with boolOut := v }
  | _ => failM ctx mv "Set Boolean is not allowed for value reference %u." index

/-- `setString`, Feedthrough/model.c 763-785. `strlen(values[*index])` is evaluated before the
check of `nValues`; it is undefined for a NULL string. `strcpy` is
undefined if string and terminator do not fit. -/
def setString (ctx : Ctx F) (mv : MV F (Data F)) (vr : Nat) (values : Ptr (Ptr UInt8))
    (nValues index : Nat) : MRes F (Data F) Nat :=
  assertNotNull ctx mv values index <|
  let d := mv.data
  match vr with
  | 29 =>
    values.read index >>- fun s =>
    match s with
    | none => .ub
    | some s =>
      if s.length ≥ maxLen then failM ctx mv "Max. string length is %d bytes." index
      else
        assertNValues ctx mv 1 nValues index index <|
        if s.length + 1 > maxLen then .ub
        else .ret ({ mv with data := { d with strIn := s }, isDirtyValues := true }, .OK,
          index + 1)
  | _ => failM ctx mv "Set String is not allowed for value reference %u." index

/-- `setBinary`, Feedthrough/model.c 787-810. `size[*index]` is read before the check of `nValues`;
`memcpy` is undefined if the data is NULL or shorter than the announced size, or if the size
exceeds the array. -/
def setBinary (ctx : Ctx F) (mv : MV F (Data F)) (vr : Nat) (values : Ptr CBinary)
    (nValues index : Nat) : MRes F (Data F) Nat :=
  assertNotNull ctx mv values index <|
  let d := mv.data
  match vr with
  | 31 =>
    values.read index >>- fun b =>
    if b.size > maxLen then failM ctx mv "Max. binary size is %d bytes." index
    else
      assertNValues ctx mv 1 nValues index index <|
      match b.data with
      | none => .ub
      | some bytes =>
        if bytes.length < b.size ∨ b.size > maxLen then .ub
        else .ret ({ mv with
          data := { d with binIn := bytes.take b.size }
          isDirtyValues := true }, .OK, index + 1)
  | _ => failM ctx mv "Set Binary is not allowed for value reference %u." index

/-- `eventUpdate`, Feedthrough/model.c 812-823 -/
def eventUpdate (_ : Ctx F) (mv : MV F (Data F)) : MRes F (Data F) Unit :=
  .ret ({ mv with
    valuesChanged := false, nominalsChanged := false, terminateSimulation := false,
    nextEventTimeDefined := false, isDirtyValues := true }, .OK, ())

/-- The FMU Feedthrough: Feedthrough/config.h 9-46 and the functions above. -/
def model (ver3 : Bool) : Model F (Data F) where
  token := "{37B954F1-CC86-4D8F-B97F-C7C36F6670D2}"
  h := Arith.lit (1 / 10)
  data0 :=
    { (startData : Data F) with
      strIn := [], strOut := [], binIn := [], binOut := [], enumIn := 0, enumOut := 0 }
  setStartValues := setStartValues
  calculateValues := fun _ mv => .ret (calcValues mv, .OK, ())
  get := fun t => match t with
    | .float32 => getFloat32
    | .float64 => getFloat64
    | .int8 => getInt8
    | .uint8 => getUInt8
    | .int16 => getInt16
    | .uint16 => getUInt16
    | .int32 => getInt32 ver3
    | .uint32 => getUInt32
    | .int64 => getInt64 ver3
    | .uint64 => getUInt64
    | .boolean => getBoolean
    | .string => getString
    | .binary => getBinary
  set := fun t => match t with
    | .float32 => setFloat32
    | .float64 => setFloat64
    | .int8 => setInt8
    | .uint8 => setUInt8
    | .int16 => setInt16
    | .uint16 => setUInt16
    | .int32 => setInt32 ver3
    | .uint32 => setUInt32
    | .int64 => setInt64 ver3
    | .uint64 => setUInt64
    | .boolean => setBoolean
    | .string => setString
    | .binary => setBinary
  eventUpdate := some eventUpdate

end Verif.Feedthrough
