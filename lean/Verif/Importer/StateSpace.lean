import Verif.Importer.CoSim
import Verif.Models.StateSpace

/-!
# Importer: the simulation program of StateSpace

examples/StateSpace.c with examples/simulate_fmi3_cs.c. `recordVariables` asks for as many outputs as the FMU says that it has, so
it is not a list of calls; the model adds it to the calls of the program as a command of its own.
-/

namespace Verif.Importer.CoSim
open Verif

/-- `R_MAX`, StateSpace/config.h 25. -/
def R_MAX : Nat := 5

/-- The commands of the program: calls to the FMU, and `recordVariables`. examples/simulate_fmi3_cs.c 22-48, examples/StateSpace.c 17-46. -/
inductive Command (F : Type)
  | call (op : FMI3.Op F)
  | recordVariables

variable {F D : Type} [Arith F] [HasInf F]

/-- `recordVariables`, examples/StateSpace.c 17-46, with the values it writes. The variable `r` is not initialized, the model passes 0.
Reading more than the elements of `y` is undefined. -/
def recordVariables (m : Model F D) (fuel : Nat) (w : FMI3.World F D) : Outcome (FMI3.World F D × Status × List F) :=
  FMI3.step m fuel w (.get .uint64 (some [3]) 1 (some [(0 : Int)]) 1) >>- fun (w, s, o) =>
  if Status.Warning.rank < s.rank then .ret (w, s, [])
  else match o with
  | .values .uint64 (some [(r : Int)]) =>
    FMI3.step m fuel w (.get .float64 (some [10]) 1 (some (List.replicate R_MAX (Arith.lit 0))) r.toNat) >>- fun (w, s, o) =>
    if Status.Warning.rank < s.rank then .ret (w, s, [])
    else match o with
    | .values .float64 (some y) => if r.toNat ≤ y.length then .ret (w, s, y.take r.toNat) else .ub
    | _ => .ub
  | _ => .ub

/-- The functions that the program uses; the outputs of calls to the FMU other than those of `recordVariables` are not used.
The calls in examples/simulate_fmi3_cs.c 22-48. -/
def apiStateSpace (m : Model F D) (fuel : Nat) (h : F) : Api F (FMI3.World F D) (Command F) (List F) where
  call w
    | .call op => FMI3.step m fuel w op >>- fun (w, s, _) => .ret (w, s, [])
    | .recordVariables => recordVariables m fuel w
  advance := advance3 m fuel h
  terminate := .call .terminate

/-- The program, examples/StateSpace.c 1 (`NO_INPUTS`: no start values and no inputs, examples/util.h 269-279), with the constants as
parameters. -/
def programStateSpace (h stopTime : F) : Program F (Command F) where
  record := [.recordVariables]
  h := h
  stopTime := stopTime

/-- examples/simulate_fmi3_cs.c 7-54 for StateSpace. StateSpace/config.h: `FIXED_SOLVER_STEP` and `DEFAULT_STOP_TIME` are 0.001
and 10. -/
def simulateStateSpace (h stopTime : F) (fuel n : Nat) (resource : Ptr UInt8) : Outcome (Status × List (Row F (List F))) :=
  let m : Model F (StateSpace.Data F) := StateSpace.model
  match FMI3.instantiateCoSimulation m (some "instance1") (some m.token) resource false false false true false true with
  | (none, _) => .ret (.Error, [])
  | (some c, _) =>
    let api := apiStateSpace m fuel h
    let P := programStateSpace h stopTime
    CALLS api [.call (.enterInitializationMode (Arith.lit 0) true stopTime), .call .exitInitializationMode] (.fresh c) [] fun w _ =>
    loop api P n 0 w []

end Verif.Importer.CoSim
