import Verif.Importer.Stepping
import Verif.Models.StateSpace

/-!
# Importer: the program that changes the dimensions, examples/cs_reconfiguration.c, with examples/StateSpace.c

As in `Importer/CoSim.lean`, `setUp`, the format of the output file and releasing the instance are not modelled, and the wrapper functions `FMI3*` are
replaced by the functions of the FMU.
-/

namespace Verif.Importer.Reconfiguration
open Verif Importer.CoSim

variable {F : Type} [Arith F] [HasInf F]

/-- `recordVariables`, examples/StateSpace.c 17-46: reads `r` and then that many values of `y`; 5 is `R_MAX`. -/
def record (fuel : Nat) (w : FMI3.World F (StateSpace.Data F)) : Outcome (FMI3.World F (StateSpace.Data F) × Status × List (FMI3.Out F)) :=
  FMI3.step StateSpace.model fuel w (.get .uint64 (some [3]) 1 (some [0]) 1) >>- fun (w, s, o) =>
  if s.rank > Status.Warning.rank then .ret (w, s, []) else
  match o with
  | .values .uint64 (some [r]) =>
    FMI3.step StateSpace.model fuel w (.get .float64 (some [10]) 1 (some (List.replicate 5 (Arith.lit 0))) r.toNat) >>- fun (w, s, o) => .ret (w, s, [o])
  | _ => .ub

/-- The first elements of an array are overwritten. `D[i] = ...` and the result of `FMI3GetFloat64`, examples/cs_reconfiguration.c 65-105. -/
def overwrite {α : Type} : (array values : List α) → List α
  | array, [] => array
  | [], _ => []
  | _ :: array, v :: values => v :: overwrite array values

/-- The loop, examples/cs_reconfiguration.c 65-105, from pass number `step` on, `n` passes; `time` is the variable, `D` the array. 5 is `M_MAX`. -/
def loop (fuel : Nat) : (n step : Nat) → (time : F) → (D : List F) → FMI3.World F (StateSpace.Data F) → List (Row F (FMI3.Out F)) →
    Outcome (Status × List (Row F (FMI3.Out F)))
  | 0, _, _, _, w, rows => tearDown (api3 StateSpace.model fuel (Arith.lit 0)) w .OK rows
  | n + 1, step, time, D, w, rows =>
    let api := api3 StateSpace.model fuel (Arith.lit 0)
    record fuel w >>- fun (w, s, vs) =>
    if s ≠ .OK then tearDown api w s rows else
    let rows := rows ++ [⟨time, vs⟩]
    let D := if step = 5 then overwrite D ([1, 0, 0, 0, 1, 0, 0, 0, 1].map Arith.lit) else D
    CALLS api (if step = 5 then [.enterConfigurationMode, .set .uint64 (some [1, 3]) 2 (some [3, 3]) 2, .exitConfigurationMode,
      .set .float64 (some [7]) 1 (some D) 9] else []) w rows fun w _ =>
    let u := (List.range 5).map fun i : Nat => (time +. Arith.lit (1/10)) +. Arith.lit (i : Rat)
    CALLS api [.set .float64 (some [9]) 1 (some u) (if step < 5 then 2 else 3), doStep3 time (Arith.lit (1/10))] w rows fun w r =>
    loop fuel n (step + 1) (stepResult time (r.drop 1)).2.2 D w rows

/-- examples/cs_reconfiguration.c 9-109. `D` and `u` are the contents of the arrays `D` and `u`, which are not initialized. Neither Event Mode nor early
return is used. -/
def reconfiguration (fuel : Nat) (D u : List F) : Outcome (Status × List (Row F (FMI3.Out F))) :=
  match FMI3.instantiateCoSimulation (StateSpace.model : Model F _) (some "instance1") (some (StateSpace.model : Model F _).token) none false false false
    true false true with
  | (none, _) => .ret (.Error, [])
  | (some c, _) =>
    let D := overwrite D ([1, 0, 0, 1].map Arith.lit)
    CALLS (api3 StateSpace.model fuel (Arith.lit 0)) [.enterConfigurationMode, .set .uint64 (some [1, 2, 3]) 3 (some [2, 0, 2]) 3, .exitConfigurationMode,
      .set .float64 (some [7]) 1 (some D) 4, .set .float64 (some [9]) 1 (some (overwrite u ([0, 1].map Arith.lit))) 2,
      .enterInitializationMode (Arith.lit 0) true (Arith.lit 10), .exitInitializationMode] (.fresh c) [] fun w _ =>
    loop fuel 11 0 (Arith.lit 0) D w []

end Verif.Importer.Reconfiguration
