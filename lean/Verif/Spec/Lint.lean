import Verif.Tools.Lint

/-!
# Specification: source files without problems
-/

namespace Verif.Lint

/-- No line of the text has a space before its end, and there are neither tabs nor carriage returns. -/
structure Tidy (text : List Char) : Prop where
  noTab : '\t' ∉ text
  noReturn : '\r' ∉ text
  noSpace : ∀ before after, text ≠ before ++ ' ' :: '\n' :: after

/-- All characters are ASCII. -/
def IsASCII (text : List Char) : Prop := ∀ c ∈ text, c.toNat < 128

/-- The text is empty or its last line ends with a line end. -/
def Ended (text : List Char) : Prop := text = [] ∨ text.getLast? = some '\n'

/-- The characters of a text that are not white space. -/
def ink (text : List Char) : List Char := text.filter fun c => !isSpace c

/-- The number of characters that are not ASCII. -/
def foreign (t : List Char) : Nat := (t.filter fun c => 128 ≤ c.toNat).length

/-- The second text is the first with four spaces for each tab. -/
inductive Tabs : List Char → List Char → Prop
  | nil : Tabs [] []
  | tab {a b : List Char} : Tabs a b → Tabs ('\t' :: a) (' ' :: ' ' :: ' ' :: ' ' :: b)
  | other {c : Char} {a b : List Char} : c ≠ '\t' → Tabs a b → Tabs (c :: a) (c :: b)

/-- What ends a line, if `rest` follows: a line feed, a carriage return with or without line feed, or the end of the file. -/
inductive LineEnd : List Char → List Char → Prop
  | lf {rest : List Char} : LineEnd ['\n'] rest
  | crlf {rest : List Char} : LineEnd ['\r', '\n'] rest
  | cr {rest : List Char} : rest.head? ≠ some '\n' → LineEnd ['\r'] rest
  | eof : LineEnd [] []

/-- The repair of a text: each line consists of its contents `a`, white space `t` and the line end `e`. The contents do not end with white space, and
stay with four spaces for each tab; the white space is removed; the line end becomes a line feed. -/
inductive Repair : List Char → List Char → Prop
  | nil : Repair [] []
  | line {a t e a' rest rest' : List Char} : (∀ c ∈ a ++ t, c ≠ '\n' ∧ c ≠ '\r') → (∀ c, a.getLast? = some c → isSpace c = false) →
      (∀ c ∈ t, isSpace c = true) → LineEnd e rest → a ++ t ++ e ≠ [] → Tabs a a' → Repair rest rest' →
      Repair (a ++ t ++ e ++ rest) (a' ++ '\n' :: rest')

/-- The name ends with the extension, in upper or lower case. -/
def HasExtension (name ext : List Char) : Prop := ∃ stem, name.map Char.toLower = stem ++ ext

/-- The files that are to be checked: header and source files that are not generated, texts, tables, HTML and XML, but not in directories with
the given names, hidden directories and caches. -/
structure Checked (f : File) : Prop where
  dirs : ∀ d ∈ f.dirs, d ∉ [chars! "build", chars! "fmi2", chars! "fmi3", chars! "fmus", chars! "venv"] ∧
    ∀ c rest, d = c :: rest → c ≠ '.' ∧ c ≠ '_'
  extension : ∃ ext ∈ [chars! ".h", chars! ".c", chars! ".md", chars! ".html", chars! ".csv", chars! ".txt", chars! ".xml"],
    HasExtension f.name ext
  generated : ¬ HasExtension f.name (chars! ".tab.c") ∧ ¬ HasExtension f.name (chars! ".yy.c")

/-- One file: it stays where it is, nothing but its white space changes, and its remaining problems are lines with characters that are not ASCII. -/
structure Result (f f' : File) (n : Nat) : Prop where
  dirs : f'.dirs = f.dirs
  name : f'.name = f.name
  ink : ink f'.text = ink f.text
  /-- the only change is the repair -/
  repair : f' = f ∨ Repair f.text f'.text
  /-- files that are not checked are not changed -/
  other : selected f = false → f' = f ∧ n = 0
  /-- files without problems are not changed -/
  clean : lintFile f.text = [] → f' = f
  /-- the repaired files, and all other files with proper line ends, are tidy -/
  tidy : selected f = true → lintFile f.text ≠ [] ∨ '\r' ∉ f.text ∧ Ended f.text → Tidy f'.text
  none : selected f = true → (n = 0 ↔ IsASCII f'.text)
  few : n ≤ foreign f'.text

/-- The number of characters that are not ASCII in all checked files. -/
def foreignAll (files : List File) : Nat := ((files.filter selected).map fun f => foreign f.text).sum

end Verif.Lint
