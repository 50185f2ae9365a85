import Verif.Lemmas.Reach2
import Verif.Examples

/-!
# C04: FMI 2.0, asynchronous stepping never appears
-/

set_option linter.unusedSectionVars false

namespace Verif
namespace FMI2
variable {F D : Type} [Arith F] [HasInf F] {m : Model F D}

/-- **C04**, modes: no reachable instance is in a pending, failed or cancelled step. -/
theorem C04_no_pending_step (hm : RefFMU2 m) {t : IType} {w : World F D} (h : Reachable m t w) :
    w.inst.ctx.state ≠ .stepInProgress ∧ w.inst.ctx.state ≠ .stepFailed ∧
      w.inst.ctx.state ≠ .stepCanceled ∧ w.inst.ctx.state ≠ .startAndEnd := by
  by_cases ht : t = .modelExchange
  · subst ht
    have := (h.mode_me hm.eff.okOrError).2
    refine ⟨?_, ?_, ?_, ?_⟩ <;> intro e <;> rw [e] at this <;> exact absurd this (by decide)
  · have := (h.mode_cs hm.eff.okOrError ht).2
    refine ⟨?_, ?_, ?_, ?_⟩ <;> intro e <;> rw [e] at this <;> exact absurd this (by decide)

/-- **C04**, statuses: whatever the state of the instance, no call returns `fmi2Pending`,
`fmi2Warning` or `fmi2Fatal`. -/
theorem C04_statuses (hm : RefFMU2 m) {fuel : Nat} {w w' : World F D} {op : Op F} {s : Status}
    {o : Out F} (h : step m fuel w op = .ret (w', s, o)) :
    s = .OK ∨ s = .Discard ∨ s = .Error := by
  rcases (step_mode' hm.eff.okOrError _ h).2 with h | h
  · exact .inr (.inr h.1)
  · rcases h.1 with h | h
    · exact .inl h
    · exact .inr (.inl h)

/-- The functions for asynchronous stepping. -/
def Spec.asynchronous : Fn → Bool
  | .cancelStep | .setRealInputDerivatives | .getStatus | .getIntegerStatus | .getStringStatus =>
    true
  | _ => false

/-- **C04**, functions: whatever the state of the instance, the functions for asynchronous stepping
never return `fmi2OK`. -/
theorem C04_never_ok {fuel : Nat} {w w' : World F D} {op : Op F} {s : Status} {o : Out F}
    (hop : Spec.asynchronous op.fn = true) (h : step m fuel w op = .ret (w', s, o)) : s ≠ .OK := by
  cases op <;> simp only [Op.fn, Spec.asynchronous, Bool.false_eq_true] at hop <;>
    simp only [step, World.run, cancelStep, setRealInputDerivatives, getStatus, getIntegerStatus,
      getStringStatus, begin, beginFunction] at h <;>
    obtain ⟨⟨c, s, b⟩, e, h⟩ := Outcome.bind_eq_ret.1 h <;> cases h <;> split at e
  case getStatus.refl.isTrue k _ | getIntegerStatus.refl.isTrue k _ | getStringStatus.refl.isTrue k _ =>
    cases k <;> simp [getStatusAux, callLast, call, Status.rank] at e <;> simp [← e.2]
  all_goals (simp [fail] at e; simp [← e.2])

/-- Non-vacuity: these calls do return, in a reachable world. -/
example : (Ex.run2 Dahlquist.model .coSimulation
    (Ex.init2 ++ [.doStep (.fin 0) (.fin 1), .getStatus .doStepStatus, .cancelStep])).is (fun x =>
      x.2.map (·.1) == [.OK, .OK, .OK, .OK, .Discard, .Error]) = true := by
  decide +kernel

end FMI2
end Verif
