import Verif.Importer.CallLog
import Verif.Spec.LogText

/-!
# Specification: the message that reports a call

A function is described by its name and its parameters. The message is `name(p₁=a₁, p₂=a₂, …)`.
-/

namespace Verif.Spec.CallLog
open Verif Importer Importer.CallLog

/-- The types of values. -/
inductive ScalarType
  | int | uint | size | double | string | pointer
  deriving DecidableEq, Repr

/-- The types of parameters: a value; an array with the type of its elements, the parameter that counts them and (for binary values) the parameter with their sizes;
a pointer to a variable for a result; a pointer to a structure with the names and types of its members. -/
inductive ParamType
  | scalar (t : ScalarType)
  | array (t : ElemType) (count : Name) (sizes : Option Name)
  | out (t : ScalarType)
  | struct (fields : List (Name × ScalarType))
  deriving DecidableEq, Repr

structure Param where
  name : Name
  type : ParamType
  deriving DecidableEq, Repr

variable {F : Type}

/-- The value has the type; a string is not NULL. -/
def HasType : ScalarType → Val F → Prop
  | .int, .int _ | .uint, .uint _ | .size, .size _ | .double, .double _ | .pointer, .pointer _ => True
  | .string, .string (some l) => 0 ∉ l
  | _, _ => False

/-- The element has the type; a string is not NULL. -/
def HasElemType : ElemType → Datum F → Prop
  | .float32, .real _ | .float64, .real _ => True
  | .string, .string (some l) => 0 ∉ l
  | .binary, .bytes (some _) => True
  | .float32, _ | .float64, _ | .string, _ | .binary, _ => False
  | .other, _ => True
  | _, .int _ => True
  | _, _ => False

/-- The size of a binary value. -/
def sizeOfDatum : Datum F → Nat
  | .bytes (some b) => b.length
  | _ => 0

/-- The members of a structure have the names and types. -/
def FitFields : List (Name × ScalarType) → List (Name × Val F) → Prop
  | [], [] => True
  | (n, t) :: ts, (m, v) :: vs => m = n ∧ HasType t v ∧ FitFields ts vs
  | _, _ => False

/-- The argument fits the type of the parameter: an array has as many elements as the counting parameter says (NULL for none), binary values have the sizes that the parameter with
the sizes says, a result is not NULL. -/
def Fits (args : Args F) : ParamType → Arg F → Prop
  | .scalar t, .scalar v => HasType t v
  | .out t, .out _ (some v) => HasType t v
  | .struct ts, .struct _ vs => FitFields ts vs
  | .array t n s, .array _ t' l => t' = t ∧ args.lookup n = some (.scalar (.size (l.getD []).length)) ∧ (∀ d ∈ l.getD [], HasElemType t d) ∧
      (t = .binary → ∃ s', s = some s' ∧ ∃ a l', args.lookup s' = some (.array a .sizeT (some l')) ∧ l' = (l.getD []).map fun d => .int (sizeOfDatum d))
  | _, _ => False

/-- The arguments of a call of a function with the parameters. -/
def FitAll (args : Args F) : List Param → Args F → Prop
  | [], [] => True
  | p :: ps, (n, a) :: as => n = p.name ∧ Fits args p.type a ∧ FitAll args ps as
  | _, _ => False

/-- A number in decimal. -/
def numberText (i : Int) : List UInt8 := (Int.repr i).toList.map byte

/-- The text for a value: numbers in decimal (`%.16g` for floating point numbers), strings in quotes, the address of a pointer. -/
def valueText (C : CLib F) : Val F → List UInt8
  | .int i => numberText i
  | .uint n => numberText n
  | .size n => numberText n
  | .double x => C.g16 x
  | .string s => [byte '"'] ++ s.getD [] ++ [byte '"']
  | .pointer a => [byte '0', byte 'x'] ++ C.p a

/-- The text for an element of an array: numbers in decimal (`%.7g` and `%.16g` for floating point numbers), strings in quotes, binary values in hexadecimal. -/
def datumText (C : CLib F) (t : ElemType) : Datum F → List UInt8
  | .real x => if t = .float32 then C.g7 x else C.g16 x
  | .int i => numberText i
  | .string s => [byte '"'] ++ s.getD [] ++ [byte '"']
  | .bytes b => [byte '0', byte 'x'] ++ (b.getD []).flatMap hexByte

/-- Texts, separated by a comma and a space. -/
def commaSeparated : List (List UInt8) → List UInt8
  | [] => []
  | [t] => t
  | t :: ts => t ++ [byte ',', byte ' '] ++ commaSeparated ts

/-- The text shows the argument: a value by its text, an array by its elements in braces or by its address, a result by its value or by its address, a structure by its members
in braces. -/
inductive Shown (C : CLib F) : Arg F → List UInt8 → Prop
  | value {v} : Shown C (.scalar v) (valueText C v)
  | elements {a t l} : Shown C (.array a t l) ([byte '{'] ++ commaSeparated ((l.getD []).map (datumText C t)) ++ [byte '}'])
  | arrayAddress {a t l} : Shown C (.array a t l) ([byte '0', byte 'x'] ++ C.p a)
  | result {a v} : Shown C (.out a (some v)) (valueText C v)
  | resultAddress {a v} : Shown C (.out a v) ([byte '0', byte 'x'] ++ C.p a)
  | members {a fs} : Shown C (.struct a fs) ([byte '{'] ++ commaSeparated (fs.map fun f => f.1.map byte ++ [byte '='] ++ valueText C f.2) ++ [byte '}'])

/-- The texts show the arguments with their names. -/
inductive ShownAll (C : CLib F) : Args F → List (List UInt8) → Prop
  | nil : ShownAll C [] []
  | cons {n a as t ts} : Shown C a t → ShownAll C as ts → ShownAll C ((n, a) :: as) ((n.map byte ++ [byte '='] ++ t) :: ts)

/-- `name(p₁=a₁, p₂=a₂, …)`. -/
def IsMessage (C : CLib F) (name : Name) (args : Args F) (text : List UInt8) : Prop :=
  ∃ ts, ShownAll C args ts ∧ text = name.map byte ++ [byte '('] ++ commaSeparated ts ++ [byte ')']

/-- The name of a status. -/
def statusName : Status → Name
  | .OK => chars! "OK"
  | .Warning => chars! "Warning"
  | .Discard => chars! "Discard"
  | .Error => chars! "Error"
  | .Fatal => chars! "Fatal"
  | .Pending => chars! "Pending"

/-- A log file with one line `name(p₁=a₁, p₂=a₂, …) -> status` for every call. -/
inductive IsLog (C : CLib F) : List (Name × Args F × Status) → List UInt8 → Prop
  | nil : IsLog C [] []
  | cons {name args s cs message rest} : IsMessage C name args message → IsLog C cs rest →
      IsLog C ((name, args, s) :: cs) (message ++ (chars! " -> ").map byte ++ (statusName s).map byte ++ [byte '\n'] ++ rest)

/-- The C library prints no zero bytes. -/
structure Printable (C : CLib F) : Prop where
  g7 : ∀ x, 0 ∉ C.g7 x
  g16 : ∀ x, 0 ∉ C.g16 x
  p : ∀ a, 0 ∉ C.p a

end Verif.Spec.CallLog
