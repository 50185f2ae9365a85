import Verif.Spec.Rejects
import Verif.Spec.Modes3
import Verif.Lemmas.Expected
import Verif.Lemmas.Close
import Verif.Props.C47
import Verif.Examples

/-!
# C23: a rejected `DoStep` does not advance the simulation
-/

set_option linter.unusedSectionVars false

namespace Verif

/-- The three checks at the beginning of `DoStep` fire for the arguments to be refused. -/
theorem Clock.Rejects.checks {k : Clock XRat} {ccp h : XRat} (hr : k.Rejects ccp h) :
    isClose ccp k.expected = false ∨ (h <=. Arith.lit 0) = true ∨
      (k.stop <. (ccp +. h) && !isClose (ccp +. h) k.stop) = true := by
  cases hr with
  | wrongPoint he hc => left; rw [he, isClose_fin_false]; exact hc
  | nanPoint => left; exact C47_nan _
  | notPositive hq => right; left; simpa using hq
  | minusInf => right; left; rfl
  | pastStop hs h1 h2 =>
    right; right
    rw [hs, XRat.add_fin, (isClose_fin_false _ _).2 h2]
    simpa using h1

theorem createModelInstance_clock {F D : Type} [Arith F] {m : Model F D}
    {ver3 logger iu name token resource loggingOn mem typ c l}
    (h : createModelInstance m ver3 logger iu name token resource loggingOn mem typ = (some c, l)) :
    c.clock = .new := by
  unfold createModelInstance at h
  simp only at h
  repeat' split at h
  all_goals first | (simp at h; done) | skip
  obtain ⟨h, -⟩ := Prod.mk.inj h
  cases h
  rfl

namespace FMI2
variable {D : Type} {m : Model XRat D}

theorem doStep_rejects {fuel : Nat} {w : World XRat D} {ccp h : XRat}
    (hr : w.inst.clock.Rejects ccp h) :
    ∃ w', step m fuel w (.doStep ccp h) = .ret (w', .Error, .unit) ∧ Spec.Refused w w' := by
  have fin : ∀ msg, ∃ w', w.run (fail w.inst msg ()) (fun _ => .unit) = .ret (w', .Error, .unit) ∧
      Spec.Refused w w' := fun msg => ⟨_, rfl, Refused.of_inst msg⟩
  simp only [step, doStep, begin, beginFunction]
  split
  · split
    · exact fin _
    · next h1 =>
      split
      · exact fin _
      · next h2 =>
        split
        · exact fin _
        · next h3 =>
          exfalso
          rcases hr.checks with h | h | h
          · simp [Comp.clock] at h; simp [h] at h1
          · exact h2 h
          · exact h3 h
  · exact fin _

/-- **C23**, FMI 2.0. After every history (that does not restore an FMU state), a `DoStep` whose
arguments do not fit the expected communication point, the stop time or positivity of the step size
returns `fmi2Error`, terminates the instance, and changes nothing else than logging one message. -/
theorem C23_rejected_step (hm : OkOrError m) {name typ guid resource functions loggingOn mem c l w₀}
    (hn : instantiate m name typ guid resource functions loggingOn mem = (some c, l))
    (h₀ : w₀.Initial c) {fuel fuel' : Nat} {ops : List (Op XRat)} {w outs}
    (hrun : run m fuel w₀ ops = .ret (w, outs)) (hops : ∀ op ∈ ops, ∀ i, op ≠ .setFMUstate i)
    {ccp h : XRat} (hr : (Clock.new.run2 ops outs).Rejects ccp h) :
    ∃ w', step m fuel' w (.doStep ccp h) = .ret (w', .Error, .unit) ∧ Spec.Refused w w' := by
  have h1 := run_clock hm ops hops _ hrun
  have h2 : c.clock = .new := by
    unfold instantiate at hn
    split at hn
    · cases hn
    · cases hn
    · exact createModelInstance_clock hn
  simp only [h₀.inst, h2] at h1
  exact doStep_rejects (h1 ▸ hr)

/-- Non-vacuity: after a step from 0 to 1 the Dahlquist FMU expects 1, and refuses a step from 2. -/
example : (Ex.run2 Dahlquist.model .coSimulation (Ex.init2 ++ [.doStep (.fin 0) (.fin 1)])).is
    (fun x => decide ((Clock.new.run2 (Ex.init2 ++ [.doStep (.fin 0) (.fin 1)]) x.2).expected = .fin 1) &&
      (step Dahlquist.model 100 x.1 (.doStep (.fin 2) (.fin 1))).is fun y =>
        y.2.1 == .Error && y.1.inst.ctx.state == .terminated && y.1.inst.ctx.time == .fin 1) = true := by
  decide +kernel
example : (⟨.fin 1, .pinf⟩ : Clock XRat).Rejects (.fin 2) (.fin 1) :=
  .wrongPoint (e := 1) rfl (by rw [← isClose_fin_false]; decide +kernel)
/-- Non-vacuity: a stop time of 2 is respected. -/
example : (⟨.fin 1, .fin 2⟩ : Clock XRat).Rejects (.fin 1) (.fin 2) :=
  .pastStop (s := 2) rfl (by decide +kernel) (by rw [← isClose_fin_false]; decide +kernel)

end FMI2

namespace FMI3
variable {D : Type} {m : Model XRat D}

theorem doStep_rejects {fuel : Nat} {w : World XRat D} {ccp h : XRat} {out : StepOut XRat}
    (hr : w.inst.clock.Rejects ccp h) :
    ∃ w', step m fuel w (.doStep ccp h out) = .ret (w', .Error, .step out) ∧ Spec.Refused w w' := by
  have fin : ∀ msg, ∃ w', w.run (fail w.inst msg out) .step = .ret (w', .Error, .step out) ∧
      Spec.Refused w w' := fun msg => ⟨_, rfl, Refused.of_inst msg⟩
  simp only [step, doStep, begin, beginFunction]
  split
  · split
    · exact fin _
    · next h1 =>
      split
      · exact fin _
      · next h2 =>
        split
        · exact fin _
        · next h3 =>
          exfalso
          rcases hr.checks with h | h | h
          · simp [Comp.clock] at h; simp [h] at h1
          · exact h2 h
          · exact h3 h
  · exact fin _

/-- **C23**, FMI 3.0. As for FMI 2.0, after every history that neither restores an FMU state nor
continues after the FMU asked to end the simulation. -/
theorem C23_rejected_step (hm : OkOrError m) {t : IType} {c : Comp XRat D} {w₀} (hn : New m t c)
    (h₀ : w₀.Initial c) {fuel fuel' : Nat} {ops : List (Op XRat)} {w outs}
    (hrun : run m fuel w₀ ops = .ret (w, outs)) (hops : ∀ op ∈ ops, ∀ i, op ≠ .setFMUState i)
    (hterm : ∀ o ∈ outs, ¬ o.2.terminates)
    {ccp h : XRat} {out : StepOut XRat} (hr : (Clock.new.run3 ops outs).Rejects ccp h) :
    ∃ w', step m fuel' w (.doStep ccp h out) = .ret (w', .Error, .step out) ∧ Spec.Refused w w' := by
  have h1 := run_clock hm ops hops _ hrun hterm
  have h2 : c.clock = .new := by
    obtain ⟨_, _, _, _, _, _, _, c₀, _, _, _, _, _, _, e, rfl⟩ := hn.created
    have := createModelInstance_clock e
    exact this
  simp only [h₀.inst, h2] at h1
  exact doStep_rejects (h1 ▸ hr)

/-- Non-vacuity: the step of the Stair FMU from 0 to 2 returns early at 1; then a step from 2 is
refused. -/
example : (Ex.runCS3 Stair.model true true (Ex.init3 ++ [.enterStepMode,
    .doStep (.fin 0) (.fin 2) Ex.stepOut])).is
    (fun x => decide ((Clock.new.run3 (Ex.init3 ++ [.enterStepMode,
        .doStep (.fin 0) (.fin 2) Ex.stepOut]) x.2).expected = .fin 1) &&
      (step Stair.model 100 x.1 (.doStep (.fin 2) (.fin 1) Ex.stepOut)).is fun y =>
        y.2.1 == .Error && y.1.inst.ctx.state == .terminated && y.1.inst.ctx.time == .fin 1) = true := by
  decide +kernel

end FMI3
end Verif
