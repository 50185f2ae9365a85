import Verif.Importer.StateSpace
import Verif.Importer.ModelExchange

/-!
# Importer: the Model Exchange program of StateSpace

examples/StateSpace.c with examples/simulate_fmi3_me.c, see `Verif.Importer.ModelExchange` and `Verif.Importer.StateSpace`.
-/

namespace Verif.Importer.Euler
open Verif CoSim

variable {F : Type} [Arith F] [HasInf F]

/-- examples/simulate_fmi3_me.c 9-228 for StateSpace with `recordVariables` of examples/StateSpace.c 17-46 and `NO_INPUTS` (examples/StateSpace.c 1).
StateSpace/config.h: `FIXED_SOLVER_STEP` and `DEFAULT_STOP_TIME` are 0.001 and 10. -/
def simulateStateSpace (M : Macros) (h stopTime : F) (fuel n : Nat) (resource : Ptr UInt8) : Outcome (Status × List (Row F (List F))) :=
  let m : Model F (StateSpace.Data F) := StateSpace.model
  match FMI3.instantiateModelExchange m (some "instance1") (some m.token) resource false true true with
  | (none, _) => .ret (.Error, [])
  | (some c, _) =>
    let api := apiStateSpace m 0 h
    CALLS api [.call (.enterInitializationMode (Arith.lit 0) true stopTime), .call .exitInitializationMode] (.fresh c) [] fun w _ =>
    simulate (watch (api3 m []) (calls api.call [.recordVariables])) ⟨M.nx, M.nz, h, stopTime, false⟩ fuel n
      ⟨w, .OK, Arith.lit 0, []⟩ >>- fun (b, s) =>
    if b then .hang else tearDown api s.w.w s.w.status s.w.rows

end Verif.Importer.Euler
