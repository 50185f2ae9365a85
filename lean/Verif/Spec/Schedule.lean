import Verif.History2
import Verif.History3
import Verif.Spec.Observe
import Verif.Spec.Reach
import Verif.Spec.Passive
import Verif.Spec.Independent
import Verif.Spec.Handled

/-! # Specification: the communication steps of a simulation, and the agreement of two instances -/

namespace Verif
variable {F D D' : Type}

/-- Communication point and step size of the calls of `fmi2DoStep`. -/
def FMI2.schedule (ops : List (FMI2.Op F)) : List (F × F) :=
  ops.filterMap fun
    | .doStep ccp h => some (ccp, h)
    | _ => none

/-- Communication point and step size of the calls of `fmi3DoStep`. -/
def FMI3.schedule (ops : List (FMI3.Op F)) : List (F × F) :=
  ops.filterMap fun
    | .doStep ccp h _ => some (ccp, h)
    | _ => none

/-- An FMI 2.0 and an FMI 3.0 instance report the same values of the variables `vars`, given by type and value reference. -/
def Agree [Arith F] [HasInf F] (vars : List (VType × Nat)) (m : Model F D) (w : FMI2.World F D) (m' : Model F D')
    (w' : FMI3.World F D') : Prop :=
  ∀ t r, (t, r) ∈ vars → ∃ v, FMI2.Reads m w t r v ∧ FMI3.Reads m' w' t r v

/-- `w` is reached from `w₀` by calls that are allowed by `ok`. -/
inductive FMI2.Calls [Arith F] [HasInf F] (m : Model F D) (ok : FMI2.World F D → FMI2.Op F → Prop) (w₀ : FMI2.World F D) :
    FMI2.World F D → Prop
  | none : FMI2.Calls m ok w₀ w₀
  | call {w w' fuel op s o} : FMI2.Calls m ok w₀ w → ok w op → FMI2.step m fuel w op = .ret (w', s, o) →
      FMI2.Calls m ok w₀ w'

/-- `w` is reached from `w₀` by calls that are allowed by `ok`. -/
inductive FMI3.Calls [Arith F] [HasInf F] (m : Model F D) (ok : FMI3.World F D → FMI3.Op F → Prop) (w₀ : FMI3.World F D) :
    FMI3.World F D → Prop
  | none : FMI3.Calls m ok w₀ w₀
  | call {w w' fuel op s o} : FMI3.Calls m ok w₀ w → ok w op → FMI3.step m fuel w op = .ret (w', s, o) →
      FMI3.Calls m ok w₀ w'

/-- `w` is reached by FMI 3.0 calls on an instance for Co-Simulation with or without Event Mode (`emu`) and early return
(`era`), without `fmi3EnterStepMode` in Initialization Mode (see `ReachableProper`). -/
def FMI3.ReachableCS [Arith F] [HasInf F] (m : Model F D) (emu era : Bool) (w : FMI3.World F D) : Prop :=
  ∃ name token resource loggingOn logger iu mem c l w₀,
    FMI3.instantiateCoSimulation m name token resource loggingOn emu era logger iu mem = (some c, l) ∧ w₀.Initial c ∧
    FMI3.Calls m (fun w op => op.fn = .enterStepMode → w.inst.ctx.state ≠ .initializationMode) w₀ w

/-- An FMI 2.0 Co-Simulation instance that has not been simulated: no steps, no events, no restored states. -/
def FMI2.Prepared [Arith F] [HasInf F] (m : Model F D) (w : FMI2.World F D) : Prop :=
  ∃ name guid resource functions loggingOn mem c l w₀,
    FMI2.instantiate m name .coSimulation guid resource functions loggingOn mem = (some c, l) ∧ w₀.Initial c ∧
    FMI2.Calls m (fun _ op => op.fn ∉ [FMI2.Fn.doStep, .newDiscreteStates, .setFMUstate]) w₀ w

/-- An FMI 3.0 Co-Simulation instance that has not been simulated: no steps, no events, no restored states. -/
def FMI3.Prepared [Arith F] [HasInf F] (m : Model F D) (emu era : Bool) (w : FMI3.World F D) : Prop :=
  ∃ name token resource loggingOn logger iu mem c l w₀,
    FMI3.instantiateCoSimulation m name token resource loggingOn emu era logger iu mem = (some c, l) ∧ w₀.Initial c ∧
    FMI3.Calls m (fun _ op => op.fn ∉ [FMI3.Fn.doStep, .updateDiscreteStates, .setFMUState, .enterStepMode]) w₀ w

/-- An FMI 2.0 instance that was prepared as `start` says ended its initialisation successfully in `w₁` and was then
simulated until `w₂` with the communication steps `steps`. Nothing was set and no call failed. -/
def FMI2.Simulates [Arith F] [HasInf F] (m : Model F D) (start : FMI2.World F D → Prop) (w₁ w₂ : FMI2.World F D)
    (steps : List (F × F)) : Prop :=
  ∃ w f₁ o fuel ops outs, start w ∧ FMI2.step m f₁ w .exitInitializationMode = .ret (w₁, .OK, o) ∧
    (∀ op ∈ ops, ¬ FMI2.Interferes op) ∧ FMI2.run m fuel w₁ ops = .ret (w₂, outs) ∧ (∀ p ∈ outs, p.1 ≠ .Error) ∧
    FMI2.schedule ops = steps

/-- An FMI 3.0 instance that was prepared as `start` says ended its initialisation successfully in `w₁` and was then
simulated until `w₂` with the communication steps `steps`. Nothing was set, the importer updated no discrete states, and all
calls succeeded. -/
def FMI3.Simulates [Arith F] [HasInf F] (m : Model F D) (start : FMI3.World F D → Prop) (w₁ w₂ : FMI3.World F D)
    (steps : List (F × F)) : Prop :=
  ∃ w f₁ o fuel ops outs, start w ∧ FMI3.step m f₁ w .exitInitializationMode = .ret (w₁, .OK, o) ∧
    (∀ op ∈ ops, ¬ FMI3.Interferes op ∧ op.fn ≠ .updateDiscreteStates) ∧ FMI3.run m fuel w₁ ops = .ret (w₂, outs) ∧
    (∀ p ∈ outs, p.1 = .OK) ∧ FMI3.schedule ops = steps

/-- An FMI 3.0 instance that was prepared as `start` says ended its initialisation successfully in `w₁` and was then simulated
until `w₂` by an importer that calls `fmi3UpdateDiscreteStates` for every event that `fmi3DoStep` reports, and, if `p`, also
behind the initialisation. Nothing was set, all calls succeeded, and the solver made less than 2⁶⁴ steps. -/
def FMI3.Handles [Arith F] [HasInf F] (m : Model F D) (start : FMI3.World F D → Prop) (p : Bool) (w₁ w₂ : FMI3.World F D) : Prop :=
  ∃ w f₁ o fuel ops outs, start w ∧ FMI3.step m f₁ w .exitInitializationMode = .ret (w₁, .OK, o) ∧
    (∀ op ∈ ops, ¬ FMI3.Interferes op) ∧ FMI3.run m fuel w₁ ops = .ret (w₂, outs) ∧ (∀ p ∈ outs, p.1 = .OK) ∧
    FMI3.Handled p ops outs false ∧ fuel * ops.length < 2 ^ 64

/-- Two FMI 3.0 instances report the same values of the variables `vars`. -/
def FMI3.SameValues [Arith F] [HasInf F] (vars : List (VType × Nat)) (m : Model F D) (w w' : FMI3.World F D) : Prop :=
  ∀ t r, (t, r) ∈ vars → ∃ v, FMI3.Reads m w t r v ∧ FMI3.Reads m w' t r v

end Verif
