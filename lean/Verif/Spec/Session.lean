import Verif.Spec.Observe

/-!
# Specification: simulation sessions and the solver grid
-/

namespace Verif
variable {F D : Type} [Arith F]

/-- The `n`-th point of the solver grid: one multiplication and one addition. -/
def gridPoint (start h : F) (n : Nat) : F := start +. Arith.lit (n : Rat) *. h

/-- `t` is the start time or a point of the solver grid. -/
def OnGrid (start h t : F) : Prop := t = start ∨ ∃ n < 2 ^ 64, t = gridPoint start h n

/-- The arithmetic computes the grid points in ascending order. -/
structure MonotoneGrid (start h : F) : Prop where
  refl : (start <=. start) = true
  first : ∀ n, (start <=. gridPoint start h n) = true
  mono : ∀ n k, n ≤ k → (gridPoint start h n <=. gridPoint start h k) = true

variable [HasInf F]

/-- A Co-Simulation session with start time `start` begins in the world `w`: the FMU was just
instantiated, reset or set up. -/
inductive FMI2.SessionStart (m : Model F D) : F → FMI2.World F D → Prop
  | new {name guid resource functions loggingOn mem c l w} :
      FMI2.instantiate m name .coSimulation guid resource functions loggingOn mem = (some c, l) →
      w.Initial c → FMI2.SessionStart m (Arith.lit 0) w
  | reset {fuel w w' o} : FMI2.Reachable m .coSimulation w →
      FMI2.step m fuel w .reset = .ret (w', .OK, o) → FMI2.SessionStart m (Arith.lit 0) w'
  | setup {fuel w w' start stopDefined stop o} : FMI2.Reachable m .coSimulation w →
      FMI2.step m fuel w (.setupExperiment start stopDefined stop) = .ret (w', .OK, o) →
      FMI2.SessionStart m start w'

/-- Calls that end a session: those that set the time anew. -/
def FMI2.EndsSession (op : FMI2.Op F) : Prop :=
  op.fn = .setupExperiment ∨ op.fn = .reset ∨ op.fn = .setFMUstate

/-- A Co-Simulation session with start time `start` begins in the world `w`: Initialization Mode was
just entered. -/
inductive FMI3.SessionStart (m : Model F D) : F → FMI3.World F D → Prop
  | init {fuel w w' start stopDefined stop o} : FMI3.Reachable m .coSimulation w →
      FMI3.step m fuel w (.enterInitializationMode start stopDefined stop) = .ret (w', .OK, o) →
      FMI3.SessionStart m start w'

/-- Calls that end a session: those that set the time anew. -/
def FMI3.EndsSession (op : FMI3.Op F) : Prop :=
  op.fn = .enterInitializationMode ∨ op.fn = .reset ∨ op.fn = .setFMUState

end Verif
