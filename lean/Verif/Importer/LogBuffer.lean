import Verif.Basic
import Verif.Core
import Verif.Importer.Uri

/-!
# Importer: the log message buffer, src/FMI.c 186-339

Formatted texts are given as their bytes. Simplifications: all lengths are natural numbers (no
overflow of `int` or `size_t`), and the arguments of the `printf` functions are not modelled, only
the text that they produce.
-/

namespace Verif.Importer
open Verif

/-- The fields `logMessageBuffer`, `logMessageBufferSize`, `logMessageBufferPosition` of
`FMIInstance`, include/FMI.h 161-163; `calls` counts the reallocations. -/
structure LogBuffer where
  buffer : Ptr UInt8
  size : Nat
  position : Nat
  calls : Nat
  deriving DecidableEq, Repr

/-- What `realloc` does at its k-th call: fail, or return memory whose new bytes have the given
contents. The call in `FMIRealloc`, src/FMI.c 71. -/
abbrev Allocator := Nat → Option (Nat → UInt8)

/-- The buffer after `FMICreateInstance`, src/FMI.c 105-107; `calloc` is assumed to succeed. -/
def LogBuffer.create : LogBuffer := ⟨some (List.replicate 1024 0), 1024, 0, 0⟩

/-- `snprintf(&buffer[p], n, ...)` producing `text`. src/FMI.c 200, 218, 238-309. -/
def snprintf (buffer : Ptr UInt8) (p n : Nat) (text : List UInt8) : Outcome (Ptr UInt8) :=
  if n = 0 then .ret buffer else writeN buffer p (text.take (n - 1) ++ [0])

/-- The loop that doubles the size, src/FMI.c 208-210 and 321-323. -/
def growTo : (fuel : Nat) → (size needed : Nat) → Outcome Nat
  | 0, _, _ => .hang
  | fuel + 1, size, needed =>
    if size < needed then growTo fuel (size * 2) needed else .ret size

/-- The contents of a block after `realloc` to `n` bytes. The call in `FMIRealloc`, src/FMI.c 71. -/
def reallocated (l : List UInt8) (n : Nat) (fill : Nat → UInt8) : List UInt8 :=
  l.take n ++ (List.range (n - l.length)).map fill

/-- `FMIRealloc(&logMessageBuffer, size)`, src/FMI.c 55-82, for a size that is not 0: `false` if
memory is exhausted, and then the buffer is left alone. -/
def LogBuffer.realloc (al : Allocator) (b : LogBuffer) (size : Nat) : Bool × LogBuffer :=
  match al b.calls with
  | none => (false, { b with calls := b.calls + 1 })
  | some fill =>
    (true, { b with buffer := some (reallocated (b.buffer.getD []) size fill),
                    calls := b.calls + 1 })

/-- `FMIClearLogMessageBuffer`, src/FMI.c 186-193. -/
def LogBuffer.clear (b : LogBuffer) : Outcome LogBuffer :=
  let b := { b with position := 0 }
  if b.size > 0 then b.buffer.write 0 0 >>- fun buffer => .ret { b with buffer := buffer }
  else .ret b

/-- `FMIAppendToLogMessageBuffer`, src/FMI.c 195-222. -/
def LogBuffer.append (al : Allocator) (fuel : Nat) (b : LogBuffer) (text : List UInt8) :
    Outcome LogBuffer :=
  snprintf b.buffer b.position (b.size - b.position) text >>- fun buffer =>
  let b := { b with buffer := buffer }
  if text.length < b.size - b.position then
    .ret { b with position := b.position + text.length }
  else
    growTo fuel b.size (b.position + text.length) >>- fun size =>
    let b := { b with size := size }
    match b.realloc al b.size with
    | (false, b) => .ret b
    | (true, b) =>
      snprintf b.buffer b.position (b.size - b.position) text >>- fun buffer =>
      .ret { b with buffer := buffer, position := b.position + text.length }

/-- An element of a value array: the text of a number, Boolean, clock or (quoted) string; the bytes
of a binary value; or a value of a type that the `switch` does not list. The cases of src/FMI.c 236-309. -/
inductive Elem
  | text (t : List UInt8)
  | binary (bytes : List UInt8)
  | unknown
  deriving DecidableEq, Repr

/-- A lower-case hexadecimal digit. For the format in src/FMI.c 292. -/
def hexLower (n : Nat) : UInt8 := (if n < 10 then 48 + n else 87 + n).toUInt8

/-- `"%02hhx"`. src/FMI.c 292. -/
def hex2 (c : UInt8) : List UInt8 := [hexLower (c.toNat / 16), hexLower (c.toNat % 16)]

/-- The loop over the bytes of a binary value, src/FMI.c 289-293. -/
def hexLoop : (bytes : List UInt8) → (buffer : Ptr UInt8) → (p n : Nat) → Outcome (Ptr UInt8)
  | [], buffer, _, _ => .ret buffer
  | c :: bytes, buffer, p, n =>
    snprintf buffer p n (hex2 c) >>- fun buffer => hexLoop bytes buffer (p + 2) (n - 2)

/-- The `switch` over the type of the element, src/FMI.c 236-309: the buffer afterwards and
`length`; `none` for the `default` branch. -/
def printElem (buffer : Ptr UInt8) (p n : Nat) : Elem → Option (Outcome (Ptr UInt8 × Nat))
  | .text t => some (snprintf buffer p n t >>- fun buffer => .ret (buffer, t.length))
  | .binary bytes =>
    let length := 2 + bytes.length * 2
    some (if length < n then
        snprintf buffer p n (ascii "0x") >>- fun buffer =>
        hexLoop bytes buffer (p + 2) (n - 2) >>- fun buffer => .ret (buffer, length)
      else .ret (buffer, length))
  | .unknown => none

/-- `FMIAppendArrayToLogMessageBuffer`, src/FMI.c 224-339; the list holds the elements from `i`
on. -/
def LogBuffer.appendArray (al : Allocator) : (fuel : Nat) → LogBuffer → List Elem →
    Outcome LogBuffer
  | _, b, [] => .ret b
  | 0, _, _ :: _ => .hang
  | fuel + 1, b, e :: es =>
    match printElem b.buffer b.position (b.size - b.position) e with
    | none => appendArray al fuel b es
    | some r =>
      r >>- fun (buffer, length) =>
      let b := { b with buffer := buffer }
      let requiredCharacters := length + 3
      if requiredCharacters < b.size - b.position then
        let b := { b with position := b.position + length }
        if es.isEmpty then appendArray al fuel b es
        else
          snprintf b.buffer b.position (b.size - b.position) (ascii ", ") >>- fun buffer =>
          appendArray al fuel { b with buffer := buffer, position := b.position + 2 } es
      else
        growTo fuel b.size (b.position + requiredCharacters) >>- fun size =>
        let b := { b with size := size }
        match b.realloc al b.size with
        | (false, b) => .ret b
        | (true, b) => appendArray al fuel b (e :: es)

/-- What the logging code of the wrapper functions does with the buffer. For example the macros src/FMI3.c 64-90. -/
inductive LogOp
  | clear
  | text (t : List UInt8)
  | array (es : List Elem)
  deriving DecidableEq, Repr

/-- One operation on the buffer. The functions of src/FMI.c 186-339. -/
def LogBuffer.step (al : Allocator) (fuel : Nat) (b : LogBuffer) : LogOp → Outcome LogBuffer
  | .clear => b.clear
  | .text t => b.append al fuel t
  | .array es => b.appendArray al fuel es

/-- A sequence of operations. For example the macro src/FMI3.c 76-90. -/
def LogBuffer.run (al : Allocator) (fuel : Nat) : LogBuffer → List LogOp → Outcome LogBuffer
  | b, [] => .ret b
  | b, op :: ops => b.step al fuel op >>- fun b => b.run al fuel ops

end Verif.Importer
