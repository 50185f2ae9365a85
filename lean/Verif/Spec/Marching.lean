import Verif.Importer.Stepping
import Verif.Spec.Simulation
import Verif.Spec.Close

/-! # Specification: a Co-Simulation with early return -/

namespace Verif

/-- The times for which the variables are recorded. A simulation begins at 0. Every step of size `d` begins only if it does not lead beyond the stop time;
it ends after at least one of the steps of size `h` of the solver, at the latest at the requested time (up to the tolerance), and earlier
only with `early`. There is one row for the time reached; with `events` there may be two, before and after an event. The last argument is the time
reached. -/
inductive Marches (early events : Prop) (h d stop : Rat) : List Rat → Rat → Prop
  | start : Marches early events h d stop [0] 0
  | step {l : List Rat} {t t' : Rat} {k : Nat} : Marches early events h d stop l t → t + d ≤ stop → 0 < k → t' = t + k * h →
      (t' ≤ t + d ∨ Close t' (t + d)) → (t' < t + d → early) → Marches early events h d stop (l ++ [t']) t'
  | event {l : List Rat} {t t' : Rat} {k : Nat} : Marches early events h d stop l t → t + d ≤ stop → 0 < k → t' = t + k * h →
      (t' ≤ t + d ∨ Close t' (t + d)) → (t' < t + d → early) → events → Marches early events h d stop (l ++ [t', t']) t'

/-- The start values, inputs and recorded variables of a program that uses Event Mode are those of the FMU: the inputs are set in Initialization Mode and
Event Mode. -/
structure FMI3.FitsEvents {F D : Type} [Arith F] (m : Model F D) (p : Profile F D) (P : Importer.CoSim.Program F (FMI3.Op F)) : Prop where
  start : ∀ op ∈ P.start, FMI3.Access m p .instantiated op
  initial : ∀ op ∈ P.inputs (Arith.lit 0), FMI3.Access m p .initializationMode op
  inputs : ∀ t, ∀ op ∈ P.inputs t, FMI3.Access m p .eventMode op
  record : ∀ op ∈ P.record, FMI3.Access m p .stepMode op

end Verif
