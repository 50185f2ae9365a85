import Verif.Lemmas.Modes3
import Verif.Examples

/-!
# C06: FMI 3.0, an error is sticky until reset or restore

The full statement fails for the functions this implementation does not offer:
`fmi3GetOutputDerivatives` of an FMU without output derivatives and the functions that only report
"Function is not implemented." return `fmi3Error` without terminating the instance
(`C06_violated`). The theorem is proved for every other call (`C06_error_sticky_partial`).
-/

set_option linter.unusedSectionVars false

namespace Verif
namespace FMI3
variable {F D : Type} [Arith F] [HasInf F] {m : Model F D}

/-- The functions that change the mode, step or set time and states. -/
def Spec.changesSimulation : Fn → Bool
  | .enterInitializationMode | .exitInitializationMode | .enterEventMode | .terminate
  | .enterConfigurationMode | .exitConfigurationMode | .enterContinuousTimeMode
  | .completedIntegratorStep | .setTime | .setContinuousStates | .enterStepMode | .doStep
  | .activateModelPartition => true
  | _ => false

/-- Calls of functions that this FMU does not offer. -/
def Spec.notOffered (m : Model F D) : Op F → Prop
  | .notImplemented _ => True
  | .getOutputDerivatives .. => m.getOutputDerivative = none
  | _ => False

theorem unsupported_iff {op : Op F} : op.unsupported m = true ↔ Spec.notOffered m op := by
  cases op <;> simp [Op.unsupported, Spec.notOffered]

/-- An instance in the Terminated mode stays there. -/
theorem terminated_run (hm : OkOrError m) {fuel : Nat} {ops : List (Op F)} {w w' : World F D} {outs}
    (hw : w.inst.ctx.state = .terminated)
    (hops : ∀ op ∈ ops, op.fn ≠ .reset ∧ op.fn ≠ .setFMUState)
    (h : run m fuel w ops = .ret (w', outs)) : w'.inst.ctx.state = .terminated := by
  induction ops generalizing w outs with
  | nil => cases h; exact hw
  | cons op ops ih =>
    simp only [run] at h
    obtain ⟨⟨w1, s1, o1⟩, e1, h⟩ := Outcome.bind_eq_ret.1 h
    obtain ⟨⟨w2, l2⟩, e2, h⟩ := Outcome.bind_eq_ret.1 h
    cases h
    refine ih ?_ (fun o ho => hops o (List.mem_cons_of_mem _ ho)) e2
    have hop := hops op List.mem_cons_self
    rcases (step_mode' hm _ e1).2 with h | ⟨-, h, h'⟩ | h
    · exact h.2
    · rw [hw] at h
      simp only at h'
      rw [h']
      cases op <;> first
        | exact absurd rfl hop.1
        | exact absurd rfl hop.2
        | (simp [Spec.allowedIn, Op.fn] at h; done)
        | exact hw
    · exact h.2.2.trans hw

/-- **C06** for all calls but those of functions the FMU does not offer: after a call that returned
`fmi3Error` and any number of further calls other than `fmi3Reset` and `fmi3SetFMUState`, the
instance is in the Terminated mode, and every call that changes the mode, steps, or sets time or
continuous states returns `fmi3Error` and changes nothing but (at most) the log. -/
theorem C06_error_sticky_partial (hm : RefFMU3 m) {fuel : Nat} {w w₁ w₂ : World F D} {op : Op F}
    {o : Out F} (hoff : ¬ Spec.notOffered m op)
    (herr : step m fuel w op = .ret (w₁, .Error, o)) {ops : List (Op F)} {outs}
    (hops : ∀ op ∈ ops, op.fn ≠ .reset ∧ op.fn ≠ .setFMUState)
    (hrun : run m fuel w₁ ops = .ret (w₂, outs)) :
    w₂.inst.ctx.state = .terminated ∧
    ∀ op' : Op F, Spec.changesSimulation op'.fn = true → ∀ fuel', ∃ w₃,
      step m fuel' w₂ op' = .ret (w₃, .Error, Spec.outputs op') ∧ Spec.Refused w₂ w₃ := by
  have h1 : w₁.inst.ctx.state = .terminated := by
    rcases (step_mode' hm.eff.okOrError _ herr).2 with h | ⟨h | h, -⟩ | h
    · exact h.2
    · cases h
    · cases h
    · exact absurd (unsupported_iff.1 h.1) hoff
  have h2 := terminated_run hm.eff.okOrError h1 hops hrun
  refine ⟨h2, ?_⟩
  intro op' hop' fuel'
  refine refused m fuel' w₂ op' ?_ ?_
  · rintro f rfl; cases hop'
  · rw [h2]
    generalize op'.fn = fn at hop'
    cases fn <;> first | (cases hop'; done) | decide

/-- Non-vacuity: a step past the stop time fails, later steps and mode changes are refused. -/
example : (Ex.runCS3 Dahlquist.model false false
    [.enterInitializationMode (.fin 0) true (.fin 1), .exitInitializationMode,
      .doStep (.fin 0) (.fin 2) Ex.stepOut, .get .float64 (some [1]) 1 (some [.fin 7]) 1,
      .doStep (.fin 0) (.fin (1 / 2)) Ex.stepOut, .terminate]).is (fun x =>
      x.2.map Prod.fst == [.OK, .OK, .Error, .OK, .Error, .Error]) = true := by
  decide +kernel

/-- **C06 is violated** for functions the FMU does not offer: asking the Dahlquist FMU for output
derivatives returns `fmi3Error`, and the following `fmi3DoStep` still succeeds and advances the
time. -/
theorem C06_violated : ∃ (c : Comp XRat (Dahlquist.Data XRat)) (w₁ w₂ : World XRat (Dahlquist.Data XRat))
    (o₁ o₂ : Out XRat),
    Ex.newCS3 Dahlquist.model false false = some c ∧
    (∃ outs, run Dahlquist.model 1000 (.fresh c)
      (Ex.init3 ++ [.getOutputDerivatives (some [1]) 1 (some [1]) (some [.fin 0])]) =
        .ret (w₁, outs ++ [(.Error, o₁)])) ∧
    step Dahlquist.model 1000 w₁ (.doStep (.fin 0) (.fin 1) Ex.stepOut) = .ret (w₂, .OK, o₂) ∧
    w₂.inst.ctx.time ≠ w₁.inst.ctx.time := by
  have h : ((Ex.newCS3 Dahlquist.model false false).any fun c =>
      (run Dahlquist.model 1000 (.fresh c)
        (Ex.init3 ++ [.getOutputDerivatives (some [1]) 1 (some [1]) (some [.fin 0])])).is fun x =>
        (match x.2 with | [_, _, (.Error, _)] => true | _ => false) &&
        (step Dahlquist.model 1000 x.1 (.doStep (.fin 0) (.fin 1) Ex.stepOut)).is fun y =>
          y.2.1 == .OK && y.1.inst.ctx.time != x.1.inst.ctx.time) = true := by decide +kernel
  obtain ⟨c, hc, h⟩ := exists_of_any h
  obtain ⟨⟨w₁, outs⟩, h1, h⟩ := Outcome.exists_of_is h
  simp only [Bool.and_eq_true] at h
  obtain ⟨ho, h⟩ := h
  obtain ⟨⟨w₂, s, o₂⟩, h2, h⟩ := Outcome.exists_of_is h
  simp only [Bool.and_eq_true, beq_iff_eq, bne_iff_ne] at h
  obtain ⟨rfl, h⟩ := h
  split at ho
  · rename_i _ a b o₁
    exact ⟨c, w₁, w₂, o₁, o₂, hc, ⟨[a, b], h1⟩, h2, h⟩
  · cases ho

end FMI3
end Verif
