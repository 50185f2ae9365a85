import Verif.Lemmas.Modes3
import Verif.Examples

/-!
# C02: FMI 3.0 calls that the current mode does not allow
-/

set_option linter.unusedSectionVars false

namespace Verif
namespace FMI3
variable {F D : Type} [Arith F] [HasInf F]

/-- **C02.** A call in a mode that does not allow it returns `fmi3Error`, writes none of its output
arguments and changes only the mode (to `Terminated`), logging at most one error. For every FMU,
instance, saved states, arguments and every function that has a mode check (the unimplemented ones
have none). -/
theorem C02_disallowed_call_refused (m : Model F D) (fuel : Nat) (w : World F D) (op : Op F)
    (hi : ∀ f, op ≠ .notImplemented f) (h : w.inst.ctx.state ∉ Spec.allowedIn op.fn) :
    ∃ w', step m fuel w op = .ret (w', .Error, Spec.outputs op) ∧ Spec.Refused w w' :=
  refused m fuel w op hi h

/-- Non-vacuity: an initialised Stair instance for Co-Simulation does not allow
`fmi3SetTime`, and the call is refused. -/
example : (Ex.runCS3 Stair.model false false Ex.init3).is (fun x =>
    decide (x.1.inst.ctx.state = .stepMode ∧
      x.1.inst.ctx.state ∉ Spec.allowedIn (Op.setTime (XRat.fin 1)).fn) &&
    (step Stair.model 1 x.1 (.setTime (.fin 1))).is fun y => y.2.1 == .Error) = true := by
  decide +kernel

end FMI3
end Verif
