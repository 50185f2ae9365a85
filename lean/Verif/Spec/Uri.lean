/-!
# Specification: percent-decoding (RFC 3986, section 2.1)
-/

namespace Verif.Spec

/-- The value of a hexadecimal digit. -/
def hexValue (b : UInt8) : Option Nat :=
  if 48 ≤ b.toNat ∧ b.toNat ≤ 57 then some (b.toNat - 48)
  else if 65 ≤ b.toNat ∧ b.toNat ≤ 70 then some (b.toNat - 55)
  else if 97 ≤ b.toNat ∧ b.toNat ≤ 102 then some (b.toNat - 87)
  else none

/-- Percent-decoding: `%XY` stands for the byte with hexadecimal digits `X`, `Y`, every other
byte for itself; a `%` without two hexadecimal digits after it is malformed. -/
inductive PercentDecodes : List UInt8 → List UInt8 → Prop
  | nil : PercentDecodes [] []
  | plain {c l r} : c ≠ 37 → PercentDecodes l r → PercentDecodes (c :: l) (c :: r)
  | coded {a b x y l r} : hexValue a = some x → hexValue b = some y → PercentDecodes l r →
      PercentDecodes (37 :: a :: b :: l) ((16 * x + y).toUInt8 :: r)

/-- The C string `s` stands at the beginning of the buffer `buf`. -/
def HoldsString (buf s : List UInt8) : Prop := 0 ∉ s ∧ ∃ rest, buf = s ++ 0 :: rest

/-- ASCII bytes of a string literal. -/
def ascii (s : String) : List UInt8 := s.toList.map fun c => c.toNat.toUInt8

/-- `loc` is a `file` URI without authority for the (percent-encoded) absolute path `p`:
`file:///...` or `file:/...`. -/
def FileUri (loc p : List UInt8) : Prop :=
  p.head? = some 47 ∧
    (loc = ascii "file://" ++ p ∨ (loc = ascii "file:" ++ p ∧ p.take 3 ≠ [47, 47, 47]))

/-- The number a file stands for: its first byte as a signed number, -1 for an empty file. -/
def fileValue : Option UInt8 → Int
  | none => -1
  | some b => if b.toNat < 128 then b.toNat else (b.toNat : Int) - 256

end Verif.Spec
