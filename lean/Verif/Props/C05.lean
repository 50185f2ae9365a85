import Verif.Lemmas.Reach2
import Verif.Lemmas.ReadAnyMode
import Verif.Examples

/-!
# C05: FMI 2.0, an error is sticky until reset or restore
-/

set_option linter.unusedSectionVars false

namespace Verif
namespace FMI2
variable {F D : Type} [Arith F] [HasInf F] {m : Model F D}

/-- The functions that would change the simulation. -/
def Spec.changesSimulation : Fn → Bool
  | .setupExperiment | .enterInitializationMode | .exitInitializationMode | .terminate | .setReal
  | .setInteger | .setBoolean | .setString | .setRealInputDerivatives | .doStep | .cancelStep
  | .enterEventMode | .newDiscreteStates | .enterContinuousTimeMode | .completedIntegratorStep
  | .setTime | .setContinuousStates => true
  | _ => false

/-- The functions that read values. -/
def Spec.reads : Fn → Bool
  | .getReal | .getInteger | .getBoolean | .getString | .getDirectionalDerivative | .getDerivatives
  | .getEventIndicators | .getContinuousStates | .getNominals => true
  | _ => false

/-- An instance in the Terminated mode stays there. -/
theorem terminated_run (hm : OkOrError m) {fuel : Nat} {ops : List (Op F)} {w w' : World F D} {outs}
    (hw : w.inst.ctx.state = .terminated)
    (hops : ∀ op ∈ ops, op.fn ≠ .reset ∧ op.fn ≠ .setFMUstate)
    (h : run m fuel w ops = .ret (w', outs)) : w'.inst.ctx.state = .terminated := by
  induction ops generalizing w outs with
  | nil => cases h; exact hw
  | cons op ops ih =>
    simp only [run] at h
    obtain ⟨⟨w1, s1, o1⟩, e1, h⟩ := Outcome.bind_eq_ret.1 h
    obtain ⟨⟨w2, l2⟩, e2, h⟩ := Outcome.bind_eq_ret.1 h
    cases h
    refine ih ?_ (fun o ho => hops o (List.mem_cons_of_mem _ ho)) e2
    have hop := hops op List.mem_cons_self
    rcases (step_mode' hm _ e1).2 with h | ⟨-, h, h'⟩
    · exact h.2
    · rw [hw] at h
      simp only at h'
      rw [h']
      cases op <;> first
        | exact absurd rfl hop.1
        | exact absurd rfl hop.2
        | (simp [Spec.allowedIn, Op.fn] at h; done)
        | exact hw

/-- **C05.** After a call that returned `fmi2Error` and any number of further calls other than
`fmi2Reset` and `fmi2SetFMUstate`, the instance is in the Terminated mode, every call that would
change the simulation returns `fmi2Error` and changes nothing but (at most) the log, and every
reading function is still allowed. -/
theorem C05_error_sticky (hm : RefFMU2 m) {fuel : Nat} {w w₁ w₂ : World F D} {op : Op F} {o : Out F}
    (herr : step m fuel w op = .ret (w₁, .Error, o)) {ops : List (Op F)} {outs}
    (hops : ∀ op ∈ ops, op.fn ≠ .reset ∧ op.fn ≠ .setFMUstate)
    (hrun : run m fuel w₁ ops = .ret (w₂, outs)) :
    w₂.inst.ctx.state = .terminated ∧
    (∀ op' : Op F, Spec.changesSimulation op'.fn = true → ∀ fuel', ∃ w₃,
      step m fuel' w₂ op' = .ret (w₃, .Error, Spec.outputs op') ∧ Spec.Refused w₂ w₃) ∧
    ∀ fn, Spec.reads fn = true → w₂.inst.ctx.state ∈ Spec.allowedIn fn := by
  have h1 : w₁.inst.ctx.state = .terminated := by
    rcases (step_mode' hm.eff.okOrError _ herr).2 with h | ⟨h | h, -⟩
    · exact h.2
    · cases h
    · cases h
  have h2 := terminated_run hm.eff.okOrError h1 hops hrun
  refine ⟨h2, ?_, ?_⟩
  · intro op' hop' fuel'
    refine refused m fuel' w₂ op' ?_
    rw [h2]
    generalize op'.fn = fn at hop'
    cases fn <;> first | (cases hop'; done) | decide
  · intro fn hfn
    rw [h2]
    cases fn <;> first | (cases hfn; done) | decide

/-- The functions that read variables. -/
def Spec.readsVariables : Fn → Bool
  | .getReal | .getInteger | .getBoolean | .getString => true
  | _ => false

/-- **C05**, getters keep working: reading variables from an instance that was terminated by an
error gives the status and values that the same read would have given without the termination. -/
theorem C05_getters_keep_working (hm : RefFMU2 m) {fuel : Nat} {w w' : World F D} {op : Op F}
    {s : Status} {o : Out F} (hop : Spec.readsVariables op.fn = true)
    (ha : w.inst.ctx.state ∈ Spec.allowedIn op.fn) (h : step m fuel w op = .ret (w', s, o)) :
    step m fuel { w with inst := w.inst.setState .terminated } op =
      .ret ({ w' with inst := w'.inst.setState .terminated }, s, o) := by
  have hr := hm.readsAnyMode
  have hok := hm.eff.okOrError
  have key : ∀ {β : Type} {r r' : Res F D β} {out : β → Out F} {x}, TermOf r r' →
      w.run r out = .ret x →
      World.run { w with inst := w.inst.setState .terminated } r' out =
        .ret ({ x.1 with inst := x.1.inst.setState .terminated }, x.2) := by
    intro β r r' out x ht hx
    obtain ⟨⟨c, s, b⟩, e, hx⟩ := Outcome.bind_eq_ret.1 hx
    cases hx
    simp [World.run, ht _ _ _ e]
  have vars : ∀ {t vr nvr value} (c : Comp F D), TermOf (getVariables m t vr nvr value c)
      (getVariables m t vr nvr value (c.setState .terminated)) := by
    intro t vr nvr value c
    unfold getVariables
    split
    · exact .ret
    · refine .nonNull (.nonNull (.refresh hr hok fun c => ?_))
      intro c' s b e
      obtain ⟨⟨c1, s1, b1⟩, e1, e⟩ := Outcome.bind_eq_ret.1 e
      cases e
      rw [TermOf.getLoop hr hok _ _ _ _ _ _ _ _ e1]; rfl
  have ha1 : allowed w.inst.ctx MASK_GetReal = true := by
    have := (allowed_fn w.inst.ctx op.fn).2 ha
    generalize op.fn = fn at hop this
    cases fn <;> first | (cases hop; done) | exact this
  have ha2 : allowed (w.inst.setState .terminated).ctx MASK_GetReal = true := by
    simp only [allowed, Comp.setState]; decide
  cases op <;> simp only [Op.fn, Spec.readsVariables, Bool.false_eq_true] at hop <;>
    simp only [step, getReal, getInteger, getBoolean, getString, begin, beginFunction, ha1, ha2,
      if_true] at h ⊢ <;>
    refine key ?_ h
  case getBoolean => exact TermOf.getBooleanLoop hr hok _ _ _ _
  all_goals exact vars _

/-- Non-vacuity: a step past the stop time fails, a later read succeeds, a later set is refused. -/
example : (Ex.run2 Dahlquist.model .coSimulation
    [.setupExperiment (.fin 0) true (.fin 1), .enterInitializationMode, .exitInitializationMode,
      .doStep (.fin 0) (.fin 2), .getReal (some [1]) 1 (some [.fin 7]),
      .setReal (some [1]) 1 (some [.fin 5]), .getReal (some [1]) 1 (some [.fin 7])]).is (fun x =>
      x.2 == [(.OK, .unit), (.OK, .unit), (.OK, .unit), (.Error, .unit), (.OK, .reals (some [.fin 1])),
        (.Error, .unit), (.OK, .reals (some [.fin 1]))]) = true := by
  decide +kernel

end FMI2
end Verif
