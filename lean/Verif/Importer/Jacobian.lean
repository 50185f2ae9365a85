import Verif.Importer.CoSim
import Verif.Models.VanDerPol

/-!
# Importer: the program that gets the Jacobian, examples/jacobian.c

As in `Importer/CoSim.lean`, `setUp` and releasing the instance are not modelled, and the wrapper functions `FMI3*` are replaced by the functions
of the FMU. The matrix is a list of rows.
-/

namespace Verif.Importer.Jacobian
open Verif Importer.CoSim

variable {F D : Type} [Arith F] [HasInf F]

/-- The loop with `FMI3GetDirectionalDerivative`, examples/jacobian.c 61-67; `xs` are the states from `vr_x[i]` on, `c` is the array for one column. -/
def columns (m : Model F D) (fuel : Nat) (dx : List Nat) : (i : Nat) → (xs : List Nat) → (c : List F) → (J : List (List F)) →
    FMI3.World F D → Outcome (FMI3.World F D × Status × List (List F))
  | _, [], _, J, w => .ret (w, .OK, J)
  | i, x :: xs, c, J, w =>
    FMI3.step m fuel w (.getDirectionalDerivative (some dx) dx.length (some [x]) 1 (some [Arith.lit 1]) (some c)) >>- fun (w, s, o) =>
    if s = .OK then
      match o with
      | .reals (some c) => columns m fuel dx (i + 1) xs c (List.zipWith (fun row v => row.set i v) J c) w
      | _ => .ub
    else .ret (w, s, J)

/-- The loop with `FMI3GetAdjointDerivative`, examples/jacobian.c 76-79; `dxs` are the derivatives from `vr_dx[i]` on, `rest` the rows of the matrix
from `J[i]` on, `J` the rows before. -/
def rows (m : Model F D) (fuel : Nat) (x : List Nat) : (dxs : List Nat) → (J rest : List (List F)) →
    FMI3.World F D → Outcome (FMI3.World F D × Status × List (List F))
  | [], J, rest, w => .ret (w, .OK, J ++ rest)
  | _ :: _, _, [], _ => .ub
  | dx :: dxs, J, row :: rest, w =>
    FMI3.step m fuel w (.getAdjointDerivative (some [dx]) 1 (some x) x.length (some [Arith.lit 1]) (some row)) >>- fun (w, s, o) =>
    if s = .OK then
      match o with
      | .reals (some row) => rows m fuel x dxs (J ++ [row]) rest w
      | _ => .ub
    else .ret (w, s, J ++ row :: rest)

/-- The comparison `a == b` of C. Used in examples/jacobian.c 70-73 and 82-85. -/
def same (a b : F) : Bool := (a <=. b) && (b <=. a)

/-- The assertions of examples/jacobian.c 70-73 and 82-85. -/
def asserts (J : List (List F)) : Bool :=
  match J with
  | [[a, b], [c, d]] => same a (Arith.lit 0) && same b (Arith.lit 1) && same c (Arith.lit (-1)) && same d (Arith.lit (-3))
  | _ => false

/-- examples/jacobian.c 9-89. `J0` and `c0` are the contents of the arrays `J` and `c`, which are not initialized, and `x0` those of `x`. The result
says whether the assertions hold, too; a failing assertion ends the program. -/
def jacobian (m : Model F D) (fuel : Nat) (x0 c0 : List F) (J0 : List (List F)) : Outcome (Status × Bool) :=
  let finish (w : FMI3.World F D) (s : Status) : Outcome (Status × Bool) :=
    tearDown (api3 m fuel (Arith.lit 0)) w s [] >>- fun (s, _) => .ret (s, true)
  match FMI3.instantiateModelExchange m (some "instance1") (some m.token) none false true true with
  | (none, _) => .ret (.Error, true)
  | (some c, _) =>
    calls (FMI3.step m fuel) [.enterInitializationMode (Arith.lit 0) false (Arith.lit 0), .exitInitializationMode, .enterContinuousTimeMode]
      (.fresh c) >>- fun (w, s, _) =>
    if s ≠ .OK then finish w s else
    FMI3.step m fuel w (.getContinuousStates (some x0) 2) >>- fun (w, s, o) =>
    if s ≠ .OK then finish w s else
    match o with
    | .reals x =>
      calls (FMI3.step m fuel) [.setTime (Arith.lit 0), .setContinuousStates x 2] w >>- fun (w, s, _) =>
      if s ≠ .OK then finish w s else
      columns m fuel [2, 4] 0 [1, 3] c0 J0 w >>- fun (w, s, J) =>
      if s ≠ .OK then finish w s else
      if asserts J then
        rows m fuel [1, 3] [2, 4] [] J w >>- fun (w, s, J) =>
        if s ≠ .OK then finish w s else
        if asserts J then finish w .OK else .ret (.OK, false)
      else .ret (.OK, false)
    | _ => .ub

end Verif.Importer.Jacobian
