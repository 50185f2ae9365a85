import Verif.Basic
import Verif.Core

/-!
# Importer: `FMIPathToURI`, src/FMI.c 341-397 (the branch without `_WIN32`)

Paths are the bytes before the terminator. The buffer `uri` is a list of bytes; `uriLength` is
the length the caller announces.
-/

namespace Verif.Importer
open Verif

/-- ASCII bytes of a string literal. For the literals in src/FMI.c 341-397. -/
def ascii (s : String) : List UInt8 := s.toList.map fun c => c.toNat.toUInt8

/-- The characters that are not encoded, src/FMI.c 374-383 (84 characters). -/
def legal : List UInt8 := ascii
  "ABCDEFGHIJKLMNOPQRSTUVWXYZabcdefghijklmnopqrstuvwxyz0123456789-._~:/?#[]@!$&'()*+,;="

/-- An upper-case hexadecimal digit. For the format in src/FMI.c 386. -/
def hexUpper (n : Nat) : UInt8 := (if n < 10 then 48 + n else 55 + n).toUInt8

/-- `sprintf(s, "%%%2X", c)`, src/FMI.c 386: the bytes written before the terminator. `c` is a
`char` that is converted to `int` and printed as `unsigned int`, so with a signed `char` a byte
from 128 on is printed as `FFFFFF..`. `%2X` pads with a space. -/
def sprintfHex (signedChar : Bool) (c : UInt8) : List UInt8 :=
  let n := c.toNat
  37 :: (if n < 16 then [32, hexUpper n]
    else if signedChar && 128 ≤ n then
      [70, 70, 70, 70, 70, 70, hexUpper (n / 16), hexUpper (n % 16)]
    else [hexUpper (n / 16), hexUpper (n % 16)])

/-- The encoding loop, src/FMI.c 360-392, and the final terminator, 394; `path` is the rest of the
path and `p` the position in the buffer. -/
def encodeLoop (signedChar : Bool) (uriLength : Nat) :
    (path : List UInt8) → (p : Nat) → Ptr UInt8 → Outcome (Status × Ptr UInt8)
  | [], p, uri => uri.write p 0 >>- fun uri => .ret (.OK, uri)
  | c :: path, p, uri =>
    if uriLength < p + 4 then .ret (.Error, uri)
    else if c ∈ legal then
      uri.write p c >>- fun uri => encodeLoop signedChar uriLength path (p + 1) uri
    else
      writeN uri p (sprintfHex signedChar c ++ [0]) >>- fun uri =>
      encodeLoop signedChar uriLength path (p + 3) uri

/-- `FMIPathToURI`, src/FMI.c 341-397. `signedChar` says whether plain `char` is signed. -/
def pathToURI (signedChar : Bool) (path : List UInt8) (uri : Ptr UInt8) (uriLength : Nat) :
    Outcome (Status × Ptr UInt8) :=
  if uriLength < path.length + 8 then .ret (.Error, uri)
  else
    writeN uri 0 (ascii "file://" ++ [0]) >>- fun uri =>
    encodeLoop signedChar uriLength path 7 uri

end Verif.Importer
