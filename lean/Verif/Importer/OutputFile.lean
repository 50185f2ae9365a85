import Verif.Importer.CoSim

/-!
# Importer: the output file of the example programs

`createOutputFile` writes the first line, `recordVariables` one line for each time the variables are recorded; examples/<FMU>.c. The file operations themselves
are taken to succeed. As in `Verif.Importer.CoSim` a row is written only if the values could be read.
-/

namespace Verif.Importer.OutputFile
open Verif CoSim

/-- An argument of `fprintf` in examples/<FMU>.c, for example examples/BouncingBall.c 33. -/
inductive Arg (F : Type)
  | real (x : F)
  | int (i : Int)
  | str (s : List Char)

/-- What `%g` and `%.<n>g` print for a number; the C library does this, it is a parameter here. For example examples/BouncingBall.c 33, examples/Feedthrough.c 305. -/
abbrev Digits (F : Type) := Option Nat → F → List Char

/-- What `%d` prints. For example examples/Stair.c 33. -/
def decimal : Int → List Char
  | .ofNat n => Nat.toDigits 10 n
  | .negSucc n => '-' :: Nat.toDigits 10 (n + 1)

/-- `fprintf` for the conversions `%g`, `%.<n>g`, `%d` and `%s`. The first argument is the state: `none` outside of a conversion specification,
`some p` within one, with the precision `p`. Every other conversion specification, a missing argument and an argument of the wrong type are undefined (C11
7.21.6.1, paragraphs 2 and 9). The length modifiers in `PRId8` to `PRIu64` (examples/Feedthrough.c 310-317) are left out. The calls are those in examples/BouncingBall.c 33,
examples/Dahlquist.c 33, examples/Stair.c 33, examples/VanDerPol.c 33, examples/Resource.c 33, examples/StateSpace.c 37-40, examples/Feedthrough.c 242-248, 305-334. -/
def fprintf {F : Type} (g : Digits F) : Option (Option Nat) → List Char → List (Arg F) → Outcome (List Char)
  | none, [], _ => .ret []
  | some _, [], _ => .ub
  | none, c :: f, as =>
    if c = '%' then fprintf g (some none) f as
    else fprintf g none f as >>- fun t => .ret (c :: t)
  | some none, c :: f, as =>
    if c = '.' then fprintf g (some (some 0)) f as
    else if c = 'g' then
      match as with
      | .real x :: as => fprintf g none f as >>- fun t => .ret (g none x ++ t)
      | _ => .ub
    else if c = 'd' then
      match as with
      | .int i :: as => fprintf g none f as >>- fun t => .ret (decimal i ++ t)
      | _ => .ub
    else if c = 's' then
      match as with
      | .str s :: as => fprintf g none f as >>- fun t => .ret (s ++ t)
      | _ => .ub
    else .ub
  | some (some n), c :: f, as =>
    if c.isDigit then fprintf g (some (some (10 * n + (c.toNat - 48)))) f as
    else if c = 'g' then
      match as with
      | .real x :: as => fprintf g none f as >>- fun t => .ret (g (some n) x ++ t)
      | _ => .ub
    else .ub

variable {F V : Type}

/-- The lines for the rows, one after the other. The calls of `recordVariables`, for example examples/simulate_fmi2_cs.c 29. -/
def lines (line : Row F V → Outcome (List Char)) : List (Row F V) → Outcome (List Char)
  | [] => .ret []
  | r :: rs => line r >>- fun a => lines line rs >>- fun b => .ret (a ++ b)

/-- The output file: the line written by `createOutputFile` (for example examples/BouncingBall.c 6-15) and the lines for the rows. -/
def outputFile (header : List Char) (line : Row F V → Outcome (List Char)) (rows : List (Row F V)) : Outcome (List Char) :=
  lines line rows >>- fun t => .ret (header ++ t)

/-- The elements of the array `values` in `recordVariables`, for example examples/BouncingBall.c 24-26, 33. -/
def args2 : FMI2.Out F → Option (List (Arg F))
  | .reals (some l) => some (l.map .real)
  | .ints (some l) => some (l.map .int)
  | _ => none

/-- The elements of the array `values` in `recordVariables`, for example examples/BouncingBall.c 28-30, 33. -/
def args3 : FMI3.Out F → Option (List (Arg F))
  | .values .float64 (some l) => some (l.map .real)
  | .values .int32 (some l) => some (l.map .int)
  | _ => none

/-- `fprintf(outputFile, format, time, values[0], ...)`, for example examples/BouncingBall.c 33. -/
def printValues (args : V → Option (List (Arg F))) (g : Digits F) (format : List Char) (r : Row F V) : Outcome (List Char) :=
  match r.values with
  | [v] => match args v with
    | some as => fprintf g none format (.real r.time :: as)
    | none => .ub
  | _ => .ub

/-- `"%g,%g\n"`, examples/Dahlquist.c 33. -/
def format1 : List Char := ['%', 'g', ',', '%', 'g', '\n']
/-- `"%g,%g,%g\n"`, examples/BouncingBall.c 33 and examples/VanDerPol.c 33. -/
def format2 : List Char := ['%', 'g', ',', '%', 'g', ',', '%', 'g', '\n']
/-- `"%g,%d\n"`, examples/Stair.c 33 and examples/Resource.c 33. -/
def formatInt : List Char := ['%', 'g', ',', '%', 'd', '\n']

/-- examples/BouncingBall.c 11. -/
def headerBouncingBall : List Char := ['t', 'i', 'm', 'e', ',', 'h', ',', 'v', '\n']
/-- examples/Dahlquist.c 11. -/
def headerDahlquist : List Char := ['t', 'i', 'm', 'e', ',', 'x', '\n']
/-- examples/VanDerPol.c 11. -/
def headerVanDerPol : List Char := ['t', 'i', 'm', 'e', ',', 'x', '0', ',', 'x', '1', '\n']
/-- examples/Stair.c 11. -/
def headerStair : List Char := ['t', 'i', 'm', 'e', ',', 'c', 'o', 'u', 'n', 't', 'e', 'r', '\n']
/-- examples/Resource.c 11 and examples/StateSpace.c 11. -/
def headerY : List Char := ['t', 'i', 'm', 'e', ',', 'y', '\n']

/-- The elements of `y`: `fprintf(outputFile, i == 0 ? "%g" : " %g", y[i])`, examples/StateSpace.c 39-41. -/
def printVector (g : Digits F) : (first : Bool) → List F → Outcome (List Char)
  | _, [] => .ret []
  | first, x :: xs =>
    fprintf g none (if first then ['%', 'g'] else [' ', '%', 'g']) [.real x] >>- fun a => printVector g false xs >>- fun b => .ret (a ++ b)

/-- examples/StateSpace.c 37-43. -/
def printStateSpace (g : Digits F) (r : Row F (List F)) : Outcome (List Char) :=
  match r.values with
  | [y] => fprintf g none ['%', 'g', ','] [.real r.time] >>- fun a => printVector g true y >>- fun b => .ret (a ++ b ++ ['\n'])
  | _ => .ub

/-- The characters that `%s` prints, examples/Feedthrough.c 247, 319. A null pointer is undefined. -/
def chars : Ptr UInt8 → Option (List Char)
  | some l => some (l.map fun b => Char.ofNat b.toNat)
  | none => none

/-- Several calls of `fprintf`, examples/Feedthrough.c 242-248. -/
def prints (g : Digits F) : List (List Char × List (Arg F)) → Outcome (List Char)
  | [] => .ret []
  | (f, as) :: rest => fprintf g none f as >>- fun a => prints g rest >>- fun b => .ret (a ++ b)

/-- `"%.16g,"`, examples/Feedthrough.c 242-244, 305, 308-309. -/
def format16 : List Char := ['%', '.', '1', '6', 'g', ',']
/-- `"%d,"`, examples/Feedthrough.c 245-246. -/
def formatD : List Char := ['%', 'd', ',']
/-- `"%\"%s\","`, examples/Feedthrough.c 247, 319. -/
def formatS : List Char := ['%', '"', '%', 's', '"', ',']
/-- `",%d\n"`, examples/Feedthrough.c 248. -/
def formatLast : List Char := [',', '%', 'd', '\n']

/-- `recordVariables` of Feedthrough with FMI 2.0, examples/Feedthrough.c 242-248. -/
def printFeedthrough2 (g : Digits F) (r : Row F (FMI2.Out F)) : Outcome (List Char) :=
  match r.values with
  | [.reals (some [x₀, x₁]), .ints (some [i₀, i₁]), .ints (some [b]), .strs (some [s])] => match chars s with
    | some s => prints g [(format16, [.real r.time]), (format16, [.real x₀]), (format16, [.real x₁]), (formatD, [.int i₀]), (formatD, [.int b]), (formatS, [.str s]),
        (formatLast, [.int i₁])]
    | none => .ub
  | _ => .ub

end Verif.Importer.OutputFile
