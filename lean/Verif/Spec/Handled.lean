import Verif.History3

/-!
# Specification: an importer that handles the events of an FMI 3.0 FMU

`Handled p ops outs p'`: in the calls `ops` with the results `outs` the importer calls
`fmi3UpdateDiscreteStates` exactly once after every `fmi3DoStep` that reports `eventHandlingNeeded`, before
the next `fmi3DoStep`, and at no other time. `p` and `p'` say whether an event is to be handled at the
beginning and at the end.
-/

namespace Verif.FMI3
variable {F : Type}

/-- `fmi3DoStep` has reported `eventHandlingNeeded`. -/
def Out.needsEvent : Out F → Bool
  | .step o => o.eventHandlingNeeded == some true
  | _ => false

/-- The importer handles every event once. -/
def Handled : Bool → List (Op F) → List (Status × Out F) → Bool → Prop
  | p, op :: ops, (_, o) :: outs, p' =>
    match op with
    | .doStep .. => p = false ∧ Handled o.needsEvent ops outs p'
    | .updateDiscreteStates .. => p = true ∧ Handled false ops outs p'
    | _ => Handled p ops outs p'
  | p, _, _, p' => p = p'

end Verif.FMI3
