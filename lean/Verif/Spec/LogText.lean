import Verif.Importer.LogBuffer
import Verif.Spec.Uri

/-!
# Specification: what the log message buffer should hold
-/

namespace Verif.Spec
open Verif Importer

/-- The hexadecimal digits, `0` to `9` and `a` to `f`. -/
def hexDigits : List UInt8 := [48, 49, 50, 51, 52, 53, 54, 55, 56, 57, 97, 98, 99, 100, 101, 102]

/-- A byte in hexadecimal, with two digits. -/
def hexByte (b : UInt8) : List UInt8 := [hexDigits.getD (b.toNat / 16) 0, hexDigits.getD (b.toNat % 16) 0]

/-- The text of an array element. -/
def elemText : Elem → List UInt8
  | .text t => t
  | .binary bytes => 48 :: 120 :: bytes.flatMap hexByte
  | .unknown => []

/-- The elements of an array, separated by a comma and a space. -/
def arrayText : List Elem → List UInt8
  | [] => []
  | [e] => elemText e
  | e :: es => elemText e ++ [44, 32] ++ arrayText es

/-- Everything appended since the last clear, after `sofar` and the given operations. -/
def logText (sofar : List UInt8) : List LogOp → List UInt8
  | [] => sofar
  | .clear :: ops => logText [] ops
  | .text t :: ops => logText (sofar ++ t) ops
  | .array es :: ops => logText (sofar ++ arrayText es) ops

/-- A size the buffer may have: it starts with 1024 and is doubled when it is too small. -/
def BufferSize (n : Nat) : Prop := ∃ k, n = 1024 * 2 ^ k

/-- While the array is appended after `len` characters, no element (plus separator and terminator)
fills a buffer exactly. -/
def ArrayMisses (len : Nat) : List Elem → Prop
  | [] => True
  | e :: es => ¬ BufferSize (len + (elemText e).length + 3) ∧
      ArrayMisses (len + (elemText e).length + 2) es

/-- While the operations are carried out after `len` characters, no text fills a buffer exactly
without its terminator, and no array element does with separator and terminator. -/
def Misses (sofar : List UInt8) : List LogOp → Prop
  | [] => True
  | .clear :: ops => Misses [] ops
  | .text t :: ops => ¬ BufferSize (sofar.length + t.length) ∧ Misses (sofar ++ t) ops
  | .array es :: ops => ArrayMisses sofar.length es ∧ Misses (sofar ++ arrayText es) ops

/-- The texts are C strings, and every array element has a type the code knows. -/
def LogOp.Proper : LogOp → Prop
  | .clear => True
  | .text t => 0 ∉ t
  | .array es => ∀ e ∈ es, e ≠ .unknown ∧ 0 ∉ elemText e

end Verif.Spec
