import Verif.Lemmas.Modes2
import Verif.Examples

/-!
# C01: FMI 2.0 calls that the current mode does not allow
-/

set_option linter.unusedSectionVars false

namespace Verif
namespace FMI2
variable {F D : Type} [Arith F] [HasInf F]

/-- **C01.** A call in a mode that does not allow it returns `fmi2Error`, writes none of its output
arguments and changes only the mode (to `Terminated`), logging at most one error. For every FMU,
instance, saved states, function and arguments. -/
theorem C01_disallowed_call_refused (m : Model F D) (fuel : Nat) (w : World F D) (op : Op F)
    (h : w.inst.ctx.state ∉ Spec.allowedIn op.fn) :
    ∃ w', step m fuel w op = .ret (w', .Error, Spec.outputs op) ∧ Spec.Refused w w' :=
  refused m fuel w op h

/-- Non-vacuity: an initialised Dahlquist instance for Co-Simulation does not allow
`fmi2EnterEventMode`, and the call is refused. -/
example : (Ex.run2 Dahlquist.model .coSimulation Ex.init2).is (fun x =>
    decide (x.1.inst.ctx.state = .stepComplete ∧
      x.1.inst.ctx.state ∉ Spec.allowedIn (Op.enterEventMode (F := XRat)).fn) &&
    (step Dahlquist.model 1 x.1 .enterEventMode).is fun y => y.2.1 == .Error) = true := by
  decide +kernel

end FMI2
end Verif
