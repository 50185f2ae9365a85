import Verif.Importer.Messages

/-!
# Specification: what becomes of a message of an FMU
-/

namespace Verif.Spec.Messages
open Verif

/-- What a text becomes if it is used as a format without arguments: `%%` is a percent sign, any other percent sign is an error (`none`). -/
def unescape : List Char → Option (List Char)
  | [] => some []
  | [c] => if c = '%' then none else some [c]
  | c :: d :: t => if c = '%' then if d = '%' then (unescape t).map ('%' :: ·) else none else (unescape (d :: t)).map (c :: ·)

/-- The name of a log category of the FMUs. -/
def Known (c : List Char) : Prop := c = chars! "logEvents" ∨ c = chars! "logStatusError"

/-- Whether errors are logged after the switches for the given categories were set to `on`. -/
def errorsAfter (on : Bool) (before : List (List Char)) (errors : Bool) : Bool := if chars! "logStatusError" ∈ before then on else errors

/-- The message about a log category that does not exist, at the given position. -/
def unknownCategory (i : Nat) (c : List Char) : List Char :=
  chars! "Log categories[" ++ (Nat.repr i).toList ++ chars! "] must be one of \"logEvents\" or \"logStatusError\" but was \"" ++ c ++ chars! "\"."

/-- The name of a status. -/
def status : Status → List Char
  | .OK => chars! "OK"
  | .Warning => chars! "Warning"
  | .Discard => chars! "Discard"
  | .Error => chars! "Error"
  | .Fatal => chars! "Fatal"
  | .Pending => chars! "Pending"

end Verif.Spec.Messages
