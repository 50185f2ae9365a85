import Verif.Chars

/-!
# The script that checks the source files: `build/lint_files.py`

The text of a file is the list of its characters after the decoding from UTF-8; files that are not UTF-8 (the script ends with an
exception) are not modelled. The system is POSIX with UTF-8 as its encoding: writing text does not change it.
-/

namespace Verif.Lint

/-- The translation of line ends when a file is read as text, `open(filename, 'r', ...)` and `for ... in file`,
build/lint_files.py 12-14 and 38-40 (the default `newline=None`). -/
def universal : List Char → List Char
  | [] => []
  | '\r' :: '\n' :: r => '\n' :: universal r
  | '\r' :: r => '\n' :: universal r
  | c :: r => c :: universal r

/-- The lines of a text, each with its line end, as `for line in file` gives them, build/lint_files.py 14 and 40. -/
def lines : List Char → List (List Char)
  | [] => []
  | c :: r =>
    if c = '\n' then [c] :: lines r
    else match lines r with
      | [] => [[c]]
      | l :: ls => (c :: l) :: ls

/-- The messages in build/lint_files.py 20, 24, 27 and 30, without the marked line. -/
inductive Kind
  | nonASCII | whitespace | tab | carriageReturn
  deriving DecidableEq, Repr

/-- The checks of one line, build/lint_files.py 16-30. `line[-2]` is the last but one character. -/
def lintLine (line : List Char) : List Kind :=
  (if line.all (fun c => c.toNat < 128) then [] else [.nonASCII]) ++
  (if line.dropLast.getLast? = some ' ' then [.whitespace] else []) ++
  (if '\t' ∈ line then [.tab] else []) ++
  (if '\r' ∈ line then [.carriageReturn] else [])

/-- The checks of the lines from line `i` on, build/lint_files.py 14-30. -/
def lintLines (i : Nat) : List (List Char) → List (Kind × Nat)
  | [] => []
  | l :: ls => (lintLine l).map (fun k => (k, i)) ++ lintLines (i + 1) ls

/-- `lint_file`, build/lint_files.py 8-32 -/
def lintFile (text : List Char) : List (Kind × Nat) := lintLines 0 (lines (universal text))

/-- The characters that Python's `str.rstrip()` removes, build/lint_files.py 41: those for which `str.isspace` is true. -/
def isSpace (c : Char) : Bool :=
  let n := c.toNat
  (0x09 ≤ n ∧ n ≤ 0x0d) || (0x1c ≤ n ∧ n ≤ 0x20) || n = 0x85 || n = 0xa0 || n = 0x1680 || (0x2000 ≤ n ∧ n ≤ 0x200a) ||
    n = 0x2028 || n = 0x2029 || n = 0x202f || n = 0x205f || n = 0x3000

/-- `line.rstrip()`, build/lint_files.py 41 -/
def rstrip (line : List Char) : List Char := (line.reverse.dropWhile isSpace).reverse

/-- `line.replace('\t', '    ')`, build/lint_files.py 42 -/
def expand (line : List Char) : List Char := line.flatMap fun c => if c = '\t' then [' ', ' ', ' ', ' '] else [c]

/-- One line, build/lint_files.py 41-42 -/
def fixLine (line : List Char) : List Char := expand (rstrip line ++ ['\n'])

/-- `fix_file`, build/lint_files.py 35-49: the new text of the file. `none` is the exception of `lines[-1]` in 45 for an empty list. The empty
string that 46 appends adds nothing to the file. -/
def fixFile (text : List Char) : Option (List Char) :=
  match lines (universal text) with
  | [] => none
  | ls => some (ls.flatMap fixLine)

/-- A file: the names of its directories from the top, its own name, and its text. -/
structure File where
  dirs : List (List Char)
  name : List Char
  text : List Char
  deriving DecidableEq, Repr

/-- The directories that are visited, build/lint_files.py 62-65. -/
def visited (dir : List Char) : Bool :=
  !([chars! "build", chars! "fmi2", chars! "fmi3", chars! "fmus", chars! "venv"].contains dir) &&
    !(dir.head? = some '.') && !(dir.head? = some '_')

/-- The files that are checked, build/lint_files.py 67-73. `str.lower` is modelled for ASCII letters. -/
def selected (f : File) : Bool :=
  let n := f.name.map Char.toLower
  f.dirs.all visited &&
  [chars! ".h", chars! ".c", chars! ".md", chars! ".html", chars! ".csv", chars! ".txt", chars! ".xml"].any (fun s => s.isSuffixOf n) &&
  ![chars! ".tab.c", chars! ".yy.c"].any (fun s => s.isSuffixOf n)

/-- The loop body for one file, build/lint_files.py 75-94: the problems that remain, and the file afterwards. `autofix` is true (5). -/
def lintOne (f : File) : Option (List (Kind × Nat) × File) :=
  if selected f then
    match lintFile f.text with
    | [] => some ([], f)
    | _ => match fixFile f.text with
      | none => none
      | some t => some (lintFile t, { f with text := t })
  else some ([], f)

/-- The loop over all files, build/lint_files.py 60-94, in the order in which `os.walk` gives them: the number of problems and the
files afterwards. The output on the console is not modelled. -/
def lintAll : List File → Option (Nat × List File)
  | [] => some (0, [])
  | f :: fs =>
    match lintOne f with
    | none => none
    | some (ms, f') => match lintAll fs with
      | none => none
      | some (n, fs') => some (ms.length + n, f' :: fs')

/-- The script, build/lint_files.py 52-98: its exit status and the files afterwards. `sys.exit(n)` ends with the lowest eight bits of `n`
as status. -/
def main (files : List File) : Option (Nat × List File) :=
  (lintAll files).map fun r => (r.1 % 256, r.2)

end Verif.Lint
