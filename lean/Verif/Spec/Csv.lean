import Verif.Importer.OutputFile

/-!
# Specification: files with comma-separated values
-/

namespace Verif.Csv
open Importer.CoSim Importer.OutputFile

/-- The parts of a text between the separators. -/
def splitOn (c : Char) : List Char → List (List Char)
  | [] => [[]]
  | x :: xs =>
    if x = c then [] :: splitOn c xs
    else match splitOn c xs with
      | [] => [[x]]
      | l :: ls => (x :: l) :: ls

/-- The text consists of lines that end with a line break, and the cells of the lines, separated by commas, are those of the table. -/
def IsTable (text : List Char) (table : List (List (List Char))) : Prop :=
  ∃ lines, splitOn '\n' text = lines ++ [[]] ∧ lines.map (splitOn ',') = table

/-- The C library prints no comma and no line break in a number. -/
def Plain {F : Type} (g : Digits F) : Prop := ∀ p x, ',' ∉ g p x ∧ '\n' ∉ g p x

/-- A number in decimal. -/
def number (i : Int) : List Char := (Int.repr i).toList

/-- The values of a row as they are printed: six significant digits for a number (`%g`), integers in decimal. -/
def shown2 {F : Type} (g : Digits F) : FMI2.Out F → List (List Char)
  | .reals (some l) => l.map (g none)
  | .ints (some l) => l.map number
  | _ => []

/-- The same for FMI 3.0. -/
def shown3 {F : Type} (g : Digits F) : FMI3.Out F → List (List Char)
  | .values .float64 (some l) => l.map (g none)
  | .values .int32 (some l) => l.map number
  | _ => []

/-- A vector in one cell: its elements, separated by spaces. -/
def vectorCell {F : Type} (g : Digits F) : List F → List Char
  | [] => []
  | [x] => g none x
  | x :: y :: xs => g none x ++ ' ' :: vectorCell g (y :: xs)

end Verif.Csv
