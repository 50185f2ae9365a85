import Lean.Elab.Term

/-!
# Lists of characters

`chars! "abc"` is the list `['a', 'b', 'c']`. With such lists the kernel computes faster than with strings.
-/

open Lean in
/-- The list of the characters of a string literal. Notation only; it models nothing in /repo. -/
macro "chars! " s:str : term => do
  let cs := s.getString.toList.toArray.map fun c => Syntax.mkCharLit c
  `([$cs,*])

example : chars! "a\"b" = ['a', '"', 'b'] := rfl
