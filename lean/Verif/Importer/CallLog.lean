import Verif.Importer.LogBuffer
import Verif.Importer.OutputFile
import Verif.Chars

/-!
# Importer: the messages with which the wrapper functions of src/FMI2.c and src/FMI3.c report their calls

If `logFunctionCall` is set, a wrapper function puts a text with its arguments into the log message buffer (`Verif.Importer.LogBuffer`) after the call of the FMU.
This file models the `printf` functions and the macros; `Verif.Importer.CallLogWrappers` lists the wrapper functions.
-/

namespace Verif.Importer.CallLog
open Verif Importer

/-- A value that is passed to a `printf` function, with its type after the default argument promotions: `int` (also for Booleans and enumerations), `unsigned int`, `size_t`, `double`,
a string (`none`: NULL), another pointer (its address). The arguments in src/FMI2.c and src/FMI3.c. -/
inductive Val (F : Type)
  | int (i : Int)
  | uint (n : Nat)
  | size (n : Nat)
  | double (x : F)
  | string (s : Ptr UInt8)
  | pointer (a : Nat)

/-- `FMIVariableType`, include/FMI.h 72-97, and `other` for the arrays of bytes, qualifiers and dependency kinds, for which it has no value. -/
inductive ElemType
  | float32 | float64 | int8 | uint8 | int16 | uint16 | int32 | uint32 | int64 | uint64 | boolean | string | binary | clock | valueReference | sizeT | other
  deriving DecidableEq, Repr

/-- An element of an array: a floating point number, an integer (also for Booleans, clocks, value references and sizes), a string or the bytes of a binary value (`none`: NULL).
What src/FMI.c 236-305 reads. -/
inductive Datum (F : Type)
  | real (x : F)
  | int (i : Int)
  | string (s : Ptr UInt8)
  | bytes (s : Ptr UInt8)

/-- A name of a function or a parameter in src/FMI2.c 99-609 and src/FMI3.c 97-1187. -/
abbrev Name := List Char

/-- An argument of a wrapper function: a value; an array with its address, the type of its elements and the elements (`none`: NULL); a pointer to a variable for a
result, with its address and the variable after the call (`none`: NULL); a pointer to a structure, with its address and its members. The arguments of src/FMI2.c 99-609 and src/FMI3.c 97-1187. -/
inductive Arg (F : Type)
  | scalar (v : Val F)
  | array (address : Nat) (type : ElemType) (elements : Option (List (Datum F)))
  | out (address : Nat) (v : Option (Val F))
  | struct (address : Nat) (fields : List (Name × Val F))

/-- The arguments of a wrapper function with the names of the parameters. As in src/FMI2.c 99-609 and src/FMI3.c 97-1187. -/
abbrev Args (F : Type) := List (Name × Arg F)

/-- What the C library prints for a number with `%.7g` and `%.16g` and for a pointer with `%p`; parameters of the model. src/FMI.c 238, 241, for example src/FMI3.c 466-468, 760. -/
structure CLib (F : Type) where
  g7 : F → List UInt8
  g16 : F → List UInt8
  p : Nat → List UInt8

/-- The byte of a character of a string literal in src/FMI2.c or src/FMI3.c. -/
def byte (c : Char) : UInt8 := c.toNat.toUInt8

/-- The digits of an integer, for `%d`, `%u` and `%zu`. For example src/FMI.c 244, 302, 305. -/
def digits (i : Int) : List UInt8 := (OutputFile.decimal i).map byte

/-- The conversion specifications in src/FMI2.c and src/FMI3.c: `%d`, `%u`, `%zu`, `%.16g`, `%s`, `%p`. -/
inductive Conv
  | d | u | zu | g16 | s | p
  deriving DecidableEq, Repr

/-- A part of a format: a character or a conversion specification. The formats in src/FMI2.c and src/FMI3.c. -/
inductive Piece
  | chr (c : Char)
  | conv (k : Conv)
  deriving DecidableEq, Repr

/-- The parts of a format, `none` if it contains any other conversion specification. The formats in src/FMI2.c and src/FMI3.c. -/
def pieces : List Char → Option (List Piece)
  | [] => some []
  | '%' :: 'd' :: f => (pieces f).map (.conv .d :: ·)
  | '%' :: 'u' :: f => (pieces f).map (.conv .u :: ·)
  | '%' :: 's' :: f => (pieces f).map (.conv .s :: ·)
  | '%' :: 'p' :: f => (pieces f).map (.conv .p :: ·)
  | '%' :: 'z' :: 'u' :: f => (pieces f).map (.conv .zu :: ·)
  | '%' :: '.' :: '1' :: '6' :: 'g' :: f => (pieces f).map (.conv .g16 :: ·)
  | c :: f => if c = '%' then none else (pieces f).map (.chr c :: ·)

/-- An argument expression: a parameter, the variable it points to, or a member of the structure it points to. For example src/FMI3.c 823: `FMUState, *size`; src/FMI2.c 401: `eventInfo->nextEventTime`. -/
inductive Ref
  | var (name : Name)
  | deref (name : Name)
  | field (name member : Name)
  deriving DecidableEq, Repr

variable {F : Type}

/-- The value of an argument expression; a null pointer must not be dereferenced. For example src/FMI3.c 823, src/FMI2.c 401. -/
def evalRef (args : Args F) : Ref → Outcome (Val F)
  | .var n => match args.lookup n with
    | some (.scalar v) => .ret v
    | some (.array a _ _) => .ret (.pointer a)
    | some (.out a _) => .ret (.pointer a)
    | some (.struct a _) => .ret (.pointer a)
    | none => .ub
  | .deref n => match args.lookup n with
    | some (.out _ (some v)) => .ret v
    | _ => .ub
  | .field n f => match args.lookup n with
    | some (.struct _ fs) => match fs.lookup f with
      | some v => .ret v
      | none => .ub
    | _ => .ub

/-- One conversion. An argument of another type is undefined (C11 7.21.6.1, paragraph 9), as is a null pointer for `%s`. Simplification: `%p` is taken to accept every
pointer. The call of `vsnprintf` in src/FMI.c 200 and 218. -/
def convert (C : CLib F) : Conv → Val F → Outcome (List UInt8)
  | .d, .int i => .ret (digits i)
  | .u, .uint n => .ret (digits n)
  | .zu, .size n => .ret (digits n)
  | .g16, .double x => .ret (C.g16 x)
  | .s, .string (some l) => .ret l
  | .p, .pointer a => .ret (C.p a)
  | _, _ => .ub

/-- `printf` for the parts of a format: too few arguments are undefined, additional ones are ignored (C11 7.21.6.1, paragraph 2). The call of `vsnprintf` in src/FMI.c 200 and 218. -/
def printf (C : CLib F) (args : Args F) : List Piece → List Ref → Outcome (List UInt8)
  | [], _ => .ret []
  | .chr c :: ps, rs => printf C args ps rs >>- fun t => .ret (byte c :: t)
  | .conv _ :: _, [] => .ub
  | .conv k :: ps, r :: rs => evalRef args r >>- fun v => convert C k v >>- fun a => printf C args ps rs >>- fun t => .ret (a ++ t)

/-- The `switch` over the type of an element, src/FMI.c 236-309; `size` is `sizes[i]`. The elements of an array of Booleans have the type that belongs to `fmiMajorVersion`
(src/FMI.c 266-278), which the functions that instantiate set. -/
def element (C : CLib F) : ElemType → Datum F → Option Nat → Outcome Elem
  | .float32, .real x, _ => .ret (.text (C.g7 x))
  | .float64, .real x, _ => .ret (.text (C.g16 x))
  | .string, .string (some s), _ => .ret (.text (byte '"' :: (s ++ [byte '"'])))
  | .binary, .bytes (some b), some k => if k ≤ b.length then .ret (.binary (b.take k)) else .ub
  | .other, _, _ => .ret .unknown
  | .float32, _, _ | .float64, _, _ | .string, _, _ | .binary, _, _ => .ub
  | _, .int i, _ => .ret (.text (digits i))
  | _, _, _ => .ub

/-- The elements of the array from `i` on. The loop of src/FMI.c 226-338. -/
def elements (C : CLib F) (t : ElemType) : List (Datum F) → List Nat → Outcome (List Elem)
  | [], _ => .ret []
  | d :: l, ss => element C t d ss.head? >>- fun e => elements C t l ss.tail >>- fun es => .ret (e :: es)

/-- An element of the array `sizes`. src/FMI.c 283. -/
def natOf : Datum F → Nat
  | .int i => i.toNat
  | _ => 0

/-- The argument `sizes` of `FMIAppendArrayToLogMessageBuffer`; empty for NULL. src/FMI.c 224. -/
def sizesOf (args : Args F) : Option Name → Outcome (List Nat)
  | none => .ret []
  | some s => match args.lookup s with
    | some (.array _ .sizeT l) => .ret ((l.getD []).map natOf)
    | _ => .ub

/-- What `FMIAppendArrayToLogMessageBuffer` reads from its arguments: `count` elements; reading behind the end of an array (or from NULL) is undefined, as is reading elements of another type. src/FMI.c 224-338. -/
def readArray (C : CLib F) (args : Args F) (values count : Name) (sizes : Option Name) (t : ElemType) : Outcome (List Elem) :=
  match args.lookup values, args.lookup count with
  | some (.array _ t' l), some (.scalar (.size n)) =>
    if t' = t ∧ n ≤ (l.getD []).length then sizesOf args sizes >>- fun ss => elements C t ((l.getD []).take n) ss else .ub
  | _, _ => .ub

/-- A call of `FMIAppendToLogMessageBuffer` or `FMIAppendArrayToLogMessageBuffer` in a wrapper function. For example src/FMI3.c 76-90. -/
inductive Code
  | text (format : List Char) (args : List Ref)
  | array (values count : Name) (sizes : Option Name) (type : ElemType)
  deriving DecidableEq, Repr

/-- What the calls of a wrapper function do with the log message buffer. For example src/FMI3.c 76-90. -/
def logOps (C : CLib F) (args : Args F) : List Code → Outcome (List LogOp)
  | [] => .ret []
  | .text f rs :: cs => match pieces f with
    | none => .ub
    | some ps => printf C args ps rs >>- fun t => logOps C args cs >>- fun os => .ret (.text t :: os)
  | .array v n s t :: cs => readArray C args v n s t >>- fun es => logOps C args cs >>- fun os => .ret (.array es :: os)

/-- A wrapper function: the name of the function of the FMU that it calls and the code that reports the call. src/FMI2.c 99-609, src/FMI3.c 97-1187. -/
structure Wrapper where
  name : Name
  code : List Code

/-- The macro `CALL`, src/FMI2.c 62-69 and src/FMI3.c 54-62 (`v` is the prefix `fmi2` or `fmi3`). Simplification: the text, which these functions pass on directly, counts as the content of the buffer. -/
def call (v f : Name) : Wrapper := ⟨v ++ f, [.text (v ++ f ++ (chars! "()")) []]⟩

/-- The macro `CALL_ARGS`, src/FMI2.c 71-80 and src/FMI3.c 64-74. -/
def callArgs (v f m : List Char) (args : List Name) : Wrapper := ⟨v ++ f, [.text (v ++ f ++ (chars! "(") ++ m ++ (chars! ")")) (args.map .var)]⟩

/-- The macro `CALL_ARRAY` of FMI 2.0, src/FMI2.c 82-95. -/
def callArray2 (s t : Name) (type : ElemType) : Wrapper :=
  ⟨(chars! "fmi2") ++ s ++ t, [.text ((chars! "fmi2") ++ s ++ t ++ (chars! "(vr={")) [], .array (chars! "vr") (chars! "nvr") none .valueReference, .text (chars! "}, nvr=%zu, value={") [.var (chars! "nvr")], .array (chars! "value") (chars! "nvr") none type,
    .text (chars! "})") []]⟩

/-- The macro `CALL_ARRAY` of FMI 3.0, src/FMI3.c 76-90. -/
def callArray3 (s t : Name) (type : ElemType) : Wrapper :=
  ⟨(chars! "fmi3") ++ s ++ t, [.text ((chars! "fmi3") ++ s ++ t ++ (chars! "(valueReferences={")) [], .array (chars! "valueReferences") (chars! "nValueReferences") none .valueReference,
    .text (chars! "}, nValueReferences=%zu, values={") [.var (chars! "nValueReferences")], .array (chars! "values") (chars! "nValues") none type, .text (chars! "}, nValues=%zu)") [.var (chars! "nValues")]]⟩

/-- What `logFunctionCall` of the example programs puts behind the message, examples/util.h 169-191. -/
def arrow : Status → List UInt8
  | .OK => (chars! " -> OK\n").map byte
  | .Warning => (chars! " -> Warning\n").map byte
  | .Discard => (chars! " -> Discard\n").map byte
  | .Error => (chars! " -> Error\n").map byte
  | .Fatal => (chars! " -> Fatal\n").map byte
  | .Pending => (chars! " -> Pending\n").map byte

/-- `logFunctionCall` of the example programs with a log file, examples/util.h 161-192: the message, a C string, and the status are appended to the file.
Reading behind the end of the buffer is undefined. -/
def logFunctionCall (file : List UInt8) (s : Status) : Ptr UInt8 → Outcome (List UInt8)
  | some l => if 0 ∈ l then .ret (file ++ l.takeWhile (· ≠ 0) ++ arrow s) else .ub
  | none => .ub

/-- How a wrapper function reports a call that returned `s`: it clears the log message buffer of the instance, fills it and passes it on, for example src/FMI3.c 79-87.
Gives the buffer and the log file afterwards. -/
def report (C : CLib F) (al : Allocator) (fuel : Nat) (w : Wrapper) (args : Args F) (s : Status) (b : LogBuffer) (file : List UInt8) : Outcome (LogBuffer × List UInt8) :=
  logOps C args w.code >>- fun os => LogBuffer.run al fuel b (.clear :: os) >>- fun b => logFunctionCall file s b.buffer >>- fun file => .ret (b, file)

/-- The calls of wrapper functions (the function, the arguments and the status) one after the other, each reported as in src/FMI3.c 79-87, with the log file of examples/util.h 161-192. -/
def reports (C : CLib F) (al : Allocator) (fuel : Nat) : List (Wrapper × Args F × Status) → LogBuffer → List UInt8 → Outcome (LogBuffer × List UInt8)
  | [], b, file => .ret (b, file)
  | (w, args, s) :: cs, b, file => report C al fuel w args s b file >>- fun x => reports C al fuel cs x.1 x.2

end Verif.Importer.CallLog
