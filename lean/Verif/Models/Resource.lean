import Verif.Core

/-! # Resource: `Resource/model.c`, `Resource/config.h`

The POSIX branch of the code (`#ifndef _WIN32`). The file system is a parameter: it maps a
path (bytes) to `none` if `fopen` fails, and otherwise to the first byte of the file (`none`
for an empty file). Simplification: the file system does not change during a simulation. -/

namespace Verif.Resource
open Verif

/-- `ModelData`, Resource/config.h 20-22 -/
structure Data where
  y : Int
  deriving DecidableEq, Repr

/-- What the file system answers for a path: cannot be opened / first byte (`none`: empty). `fopen` and `fgetc`, Resource/model.c 104, 112. -/
abbrev FileSystem := List UInt8 → Option (Option UInt8)

/-- ASCII bytes of a string literal. For the literals in Resource/model.c 59-60, 96-98. -/
def ascii (s : String) : List UInt8 := s.toList.map fun c => c.toNat.toUInt8

/-- `MAX_PATH_LENGTH`, Resource/model.c 13 -/
def maxPathLength : Nat := 4096

/-- Value of a hexadecimal digit for `strtol`. Resource/model.c 80. -/
def hexDigit? (b : UInt8) : Option Nat :=
  if 48 ≤ b.toNat ∧ b.toNat ≤ 57 then some (b.toNat - 48)
  else if 65 ≤ b.toNat ∧ b.toNat ≤ 70 then some (b.toNat - 55)
  else if 97 ≤ b.toNat ∧ b.toNat ≤ 102 then some (b.toNat - 87)
  else none

/-- `isspace` in the C locale, used by `strtol`. Resource/model.c 80. -/
def isSpace (b : UInt8) : Bool := b.toNat = 32 || (9 ≤ b.toNat && b.toNat ≤ 13)

/-- `strtol(buf, NULL, 16)` for a buffer with two non-zero bytes, Resource/model.c 80: leading
white space, optional sign, hexadecimal digits; a prefix `0x` would need a third byte. -/
def strtol2 (a b : UInt8) : Int :=
  let d (b : UInt8) : Int := ((hexDigit? b).getD 0 : Nat)
  if isSpace a then (if isSpace b then 0 else d b)
  else if a.toNat = 43 then d b
  else if a.toNat = 45 then - d b
  else match hexDigit? a with
    | none => 0
    | some x => match hexDigit? b with
      | none => x
      | some y => 16 * x + y

/-- The conversion of the `long` result to `char`, Resource/model.c 80. -/
def toByte (v : Int) : UInt8 := (v % 256).toNat.toUInt8

/-- The decoding loop, Resource/model.c 71-90, on the bytes before the terminator. The C code
works in place with `dst <= src`, so the bytes still to be read are not overwritten. A `%` with fewer than two
bytes after it is copied. A decoded zero byte ends the C string. -/
def percentDecode : List UInt8 → List UInt8
  | c :: a :: b :: rest =>
    if c.toNat = 37 then toByte (strtol2 a b) :: percentDecode rest
    else c :: percentDecode (a :: b :: rest)
  | l => l

/-- The C string in a buffer: the bytes before the first zero byte. The argument of `fopen`, Resource/model.c 104. -/
def cstr (l : List UInt8) : List UInt8 := l.takeWhile (· ≠ 0)

/-- Outcome of computing the path: a log message and `Error`, or the path. Resource/model.c 32-35, 56-101. -/
inductive PathResult
  | error (msg : String)
  | path (p : List UInt8)
  deriving DecidableEq, Repr

/-- Computation of the path of the resource file, Resource/model.c 32-35, 56-101. For FMI 3 a
location of 4096 or more bytes leaves `path` without a terminator, so that `strlen(path)` is
undefined. -/
def resourcePath (ver3 : Bool) (loc : Ptr UInt8) : Outcome PathResult :=
  match loc with
  | none => .ret (.error "Resource location must not be NULL.")
  | some loc =>
    if ver3 then
      if loc.length ≥ maxPathLength then .ub
      else .ret (.path (loc ++ (ascii "y.txt").take (maxPathLength - loc.length - 1)))
    else
      let scheme1 := ascii "file:///"
      let scheme2 := ascii "file:/"
      let fin (p : List UInt8) : Outcome PathResult :=
        let p := cstr (percentDecode (p.take (maxPathLength - 1)))
        .ret (.path (p ++ (ascii "/y.txt").take (maxPathLength - p.length - 1)))
      if loc.take scheme1.length = scheme1 then fin (loc.drop (scheme1.length - 1))
      else if loc.take scheme2.length = scheme2 then fin (loc.drop (scheme2.length - 1))
      else .ret (.error "The resourceLocation must start with \"file:/\" or \"file:///\"")

/-- `c = (char)fgetc(file); M(y) = c;`, Resource/model.c 112-115, with a signed `char`;
`EOF` is -1. -/
def charValue : Option UInt8 → Int
  | none => -1
  | some b => if b.toNat < 128 then b.toNat else (b.toNat : Int) - 256

section
variable {F : Type}

/-- `setStartValues`, Resource/model.c 15-23 -/
def setStartValues (_ : Ctx F) (mv : MV F Data) : MV F Data :=
  { mv with data := { y := 0 }, isDirtyValues := true }

/-- `calculateValues`, Resource/model.c 25-123 -/
def calculateValues (ver3 : Bool) (fs : FileSystem) (ctx : Ctx F) (mv : MV F Data) :
    MRes F Data Unit :=
  resourcePath ver3 ctx.resourceLocation >>- fun r =>
  match r with
  | .error msg => failM ctx mv msg ()
  | .path p =>
    match fs p with
    | none => failM ctx mv "Failed to open resource file %s." ()
    | some c => .ret ({ mv with data := { y := charValue c }, isDirtyValues := false }, .OK, ())

/-- `getFloat64`, Resource/model.c 126-142. The status of `calculateValues` is ignored. -/
def getFloat64 (ver3 : Bool) (fs : FileSystem) (ctx : Ctx F) (mv : MV F Data) (vr : Nat)
    (values : Ptr F) (nValues index : Nat) : MRes F Data (Ptr F × Nat) :=
  assertNotNull ctx mv values (values, index) <|
  calculateValues ver3 fs ctx mv >>- fun (mv, _, _) =>
  match vr with
  | 0 => putScalar ctx mv values nValues index ctx.time
  | _ => failM ctx mv "Get Float64 is not allowed for value reference %u." (values, index)

/-- `getInt32`, Resource/model.c 145-161. The status of `calculateValues` is ignored. -/
def getInt32 (ver3 : Bool) (fs : FileSystem) (ctx : Ctx F) (mv : MV F Data) (vr : Nat)
    (values : Ptr Int) (nValues index : Nat) : MRes F Data (Ptr Int × Nat) :=
  assertNotNull ctx mv values (values, index) <|
  calculateValues ver3 fs ctx mv >>- fun (mv, _, _) =>
  match vr with
  | 1 => putScalar ctx mv values nValues index mv.data.y
  | _ => failM ctx mv "Get Int32 is not allowed for value reference %u." (values, index)

/-- The FMU Resource: Resource/config.h 5-14 and the functions above. `eventUpdate` (163-174) is
not part of the FMU since `EVENT_UPDATE` is not defined. -/
def model [Arith F] (ver3 : Bool) (fs : FileSystem) : Model F Data where
  token := "{7b9c2114-2ce5-4076-a138-2cbc69e069e5}"
  h := Arith.lit 1
  data0 := ⟨0⟩
  setStartValues := setStartValues
  calculateValues := calculateValues ver3 fs
  get := fun t => match t with
    | .float64 => getFloat64 ver3 fs
    | .int32 => getInt32 ver3 fs
    | t => getStub t

end
end Verif.Resource
