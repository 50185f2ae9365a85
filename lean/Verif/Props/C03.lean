import Verif.Lemmas.Reach2
import Verif.Examples

/-!
# C03: FMI 2.0, the two interface types never mix
-/

set_option linter.unusedSectionVars false

namespace Verif
namespace FMI2
variable {F D : Type} [Arith F] [HasInf F] {m : Model F D}

/-- **C03**, Model Exchange: in every world reachable from a Model Exchange instance, `fmi2DoStep`
returns `fmi2Error` and changes only the mode. -/
theorem C03_model_exchange_never_steps (hm : RefFMU2 m) {w : World F D}
    (h : Reachable m .modelExchange w) (fuel : Nat) (ccp stepSize : F) :
    ∃ w', step m fuel w (.doStep ccp stepSize) = .ret (w', .Error, .unit) ∧ Spec.Refused w w' := by
  have := (h.mode_me hm.eff.okOrError).2
  refine refused m fuel w _ ?_
  intro e
  simp only [Op.fn, Spec.allowedIn, List.mem_singleton] at e
  rw [e] at this
  exact absurd this (by decide)

/-- The functions that only make sense for Model Exchange. -/
def Spec.modelExchangeOnly : Fn → Bool
  | .enterEventMode | .newDiscreteStates | .enterContinuousTimeMode | .completedIntegratorStep
  | .setTime | .setContinuousStates => true
  | _ => false

/-- **C03**, Co-Simulation: in every world reachable from a Co-Simulation instance, the Model
Exchange functions return `fmi2Error` and change only the mode. -/
theorem C03_co_simulation_never_model_exchange (hm : RefFMU2 m) {w : World F D}
    (h : Reachable m .coSimulation w) (fuel : Nat) (op : Op F)
    (hop : Spec.modelExchangeOnly op.fn = true) :
    ∃ w', step m fuel w op = .ret (w', .Error, Spec.outputs op) ∧ Spec.Refused w w' := by
  have := (h.mode_cs hm.eff.okOrError (by decide)).2
  refine refused m fuel w _ ?_
  generalize op.fn = fn at hop
  intro e
  revert this e
  generalize w.inst.ctx.state = s
  cases fn <;> first | (cases hop; done) | (cases s <;> decide)

/-- Non-vacuity: a Co-Simulation instance that was reset after a step and then restored a state
saved before the step can be reached, and is in a mode where stepping is possible. -/
example : (Ex.run2 Dahlquist.model .coSimulation
    (Ex.init2 ++ [.getFMUstate 0, .doStep (.fin 0) (.fin 1), .reset, .setFMUstate 0])).is (fun x =>
      decide (x.1.inst.ctx.state = .stepComplete) && x.2.all (·.1 == .OK)) = true := by
  decide +kernel

/-- Non-vacuity: a Model Exchange instance reaches Continuous-Time Mode. -/
example : (Ex.run2 BouncingBall.model .modelExchange
    (Ex.init2 ++ [.enterContinuousTimeMode, .setTime (.fin 1)])).is (fun x =>
      decide (x.1.inst.ctx.state = .continuousTimeMode) && x.2.all (·.1 == .OK)) = true := by
  decide +kernel

end FMI2
end Verif
