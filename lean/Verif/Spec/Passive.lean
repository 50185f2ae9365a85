import Verif.Spec.Session

/-!
# Specification: calls that interfere with a simulation
-/

namespace Verif
variable {F : Type}

/-- Calls by which an importer sets variables, states or the time of the FMU, or starts over. -/
def FMI2.Interferes (op : FMI2.Op F) : Prop :=
  op.fn ∈ [FMI2.Fn.setReal, .setInteger, .setBoolean, .setString, .setContinuousStates, .setTime,
    .setFMUstate, .reset, .setupExperiment, .enterInitializationMode]

/-- Calls by which an importer sets variables, states, clocks or the time of the FMU, starts over, or
consumes a clock tick. -/
def FMI3.Interferes (op : FMI3.Op F) : Prop :=
  (∃ t, op.fn = .set t) ∨ op.fn ∈ [FMI3.Fn.setClock, .getClock, .getIntervalDecimal,
    .activateModelPartition, .setContinuousStates, .setTime, .setFMUState, .reset,
    .enterInitializationMode]

end Verif
