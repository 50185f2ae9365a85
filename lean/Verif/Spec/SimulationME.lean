import Verif.Importer.ModelExchange
import Verif.Spec.Legal
import Verif.Spec.WellFormed
import Verif.Spec.Integrate

/-!
# Specification: a complete Model Exchange simulation

What the output file of the programs examples/simulate_fmi2_me.c and examples/simulate_fmi3_me.c contains.
-/

namespace Verif
open Importer.CoSim

/-- There are rows for the times `t 0, …, t (k - 1)` in this order: one for each of them, or two if there was an event at this
time (the values before and after it), which is possible only if the FMU has events. -/
inductive Covers {F : Type} (events : Prop) (t : Nat → F) : Nat → List F → Prop
  | zero : Covers events t 0 []
  | once {k l} : Covers events t k l → Covers events t (k + 1) (l ++ [t k])
  | twice {k l} : events → Covers events t k l → Covers events t (k + 1) (l ++ [t k, t k])

variable {F D : Type}

/-- A call that gets variables of the FMU. -/
def FMI2.Gets (m : Model F D) (p : Profile F D) (op : FMI2.Op F) : Prop :=
  op.fn ∈ [FMI2.Fn.getReal, .getInteger, .getBoolean, .getString] ∧
  ∀ w : FMI2.World F D, FMI2.Args m p w op ∧ FMI2.WellFormed w op

/-- A call that gets variables of the FMU. -/
def FMI3.Gets (m : Model F D) (p : Profile F D) (op : FMI3.Op F) : Prop :=
  (∃ t, op.fn = .get t) ∧ ∀ w : FMI3.World F D, FMI3.Args m p w op ∧ FMI3.WellFormed w op

end Verif
