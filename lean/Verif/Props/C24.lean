import Verif.Lemmas.DoStep
import Verif.Lemmas.Expected
import Verif.Lemmas.TimeVar
import Verif.Lemmas.NoEvent
import Verif.Lemmas.Reach3
import Verif.Lemmas.Modes2
import Verif.Examples

/-!
# C24: a step that ends the simulation is discarded and reported consistently (FMI 2.0)
-/

set_option linter.unusedSectionVars false

namespace Verif
variable {F D : Type} [Arith F] {m : Model F D}

namespace FMI2
variable [HasInf F]

/-- The importer asks with `fmi2GetBooleanStatus(fmi2Terminated)` and gets the answer `b`. -/
def SaysTerminated (m : Model F D) (w : World F D) (b : Bool) : Prop :=
  ∀ fuel x, ∃ w', step m fuel w (.getBooleanStatus .terminated (some x)) =
    .ret (w', .OK, .bool (some b))

/-- The importer asks with `fmi2GetRealStatus(fmi2LastSuccessfulTime)` and gets the answer `t`. -/
def SaysLastTime (m : Model F D) (w : World F D) (t : F) : Prop :=
  ∀ fuel x, ∃ w', step m fuel w (.getRealStatus .lastSuccessfulTime (some x)) =
    .ret (w', .OK, .real (some t))

theorem says_terminated {w : World F D} (h : w.inst.ctx.state = .stepComplete) :
    SaysTerminated m w w.inst.mv.terminateSimulation := by
  intro fuel x
  refine ⟨w, ?_⟩
  have : allowed w.inst.ctx MASK_GetStatus = true := by simp [allowed, h]; decide
  simp [step, World.run, getBooleanStatus, begin, beginFunction, this]

theorem says_lastTime {w : World F D} (h : w.inst.ctx.state = .stepComplete) :
    SaysLastTime m w w.inst.ctx.time := by
  intro fuel x
  refine ⟨w, ?_⟩
  have : allowed w.inst.ctx MASK_GetStatus = true := by simp [allowed, h]; decide
  simp [step, World.run, getRealStatus, begin, beginFunction, this]

theorem SaysTerminated.eq {w : World F D} {b b' : Bool} (h : SaysTerminated m w b)
    (h' : SaysTerminated m w b') : b = b' := by
  obtain ⟨_, h⟩ := h 0 true
  obtain ⟨_, h'⟩ := h' 0 true
  rw [h] at h'
  cases h'; rfl

/-- **C24**: a discarded step. Then `fmi2Terminated` is true, `fmi2LastSuccessfulTime` is the time
that `fmi2GetReal` reports, and the communication point and stop time expected next are the same as
before. -/
theorem C24_discarded (hm : RefFMU2 m) {fuel : Nat} {w w' : World F D} {ccp h : F} {o}
    (e : step m fuel w (.doStep ccp h) = .ret (w', .Discard, o)) :
    SaysTerminated m w' true ∧
      (∃ t, SaysLastTime m w' t ∧ ReadsTime m w' t) ∧ w'.inst.clock = w.inst.clock := by
  obtain ⟨hs, -, n, -, hl⟩ := doStep_loop hm.eff.okOrError e (by simp)
  have hs' : w'.inst.ctx.state = .stepComplete := by rw [hl.state hm.eff.okOrError (by simp), hs]
  refine ⟨?_, ⟨_, says_lastTime hs', reads_time hm.eff.okOrError hm.timeVar w'⟩, ?_⟩
  · have := says_terminated (m := m) hs'
    rwa [hl.terminated.1 rfl] at this
  · rw [hl.clock hm.eff.okOrError, if_neg (by simp)]

/-- **C24**: if termination had not been requested before the step, then the step is discarded
exactly if it has been requested after the step. -/
theorem C24_iff_requested (hm : RefFMU2 m) {fuel : Nat} {w w' : World F D} {ccp h : F} {s o}
    (hw : SaysTerminated m w false)
    (e : step m fuel w (.doStep ccp h) = .ret (w', s, o)) (hs : s ≠ .Error) :
    (s = .Discard ∧ SaysTerminated m w' true) ∨ (s = .OK ∧ SaysTerminated m w' false) := by
  obtain ⟨hst, -, n, -, hl⟩ := doStep_loop hm.eff.okOrError e hs
  have hs' : w'.inst.ctx.state = .stepComplete := by rw [hl.state hm.eff.okOrError hs, hst]
  have h1 := says_terminated (m := m) hst
  have h2 := says_terminated (m := m) hs'
  have hf := h1.eq hw
  rcases hl.status with rfl | rfl | rfl
  · right; refine ⟨rfl, ?_⟩; rwa [hl.terminated.2 rfl (.inr hf)] at h2
  · left; refine ⟨rfl, ?_⟩; rwa [hl.terminated.1 rfl] at h2
  · exact absurd rfl hs

/-- The flag is not touched by anything but event handling. -/
theorem terminate_histInv (hm : m.Eff)
    (hst : ∀ ctx mv, (m.setStartValues ctx mv).terminateSimulation = mv.terminateSimulation)
    (b : Bool) : HistInv m.noEvent fun c => c.mv.terminateSimulation = b :=
  { terminate_stepQuiet hm b with
    term := fun h => h
    setup := fun _ _ h _ => h
    enterInit := fun h _ => h
    exitInit := fun h _ => h
    reset := fun h => Outcome.all_ret.2 ((hst _ _).trans h)
    restore := fun _ h => h
    enterEvent := fun h _ => h
    enterCT := fun h _ => h
    setTime := fun _ h _ => h
    flags := fun _ _ h => h }

/-- The modes of a Co-Simulation instance. -/
theorem modes_cs (m : Model F D) : HistInv m fun c : Comp F D => c.ctx.typ = .coSimulation ∧
    c.ctx.state ∈ [Mode.instantiated, .initializationMode, .stepComplete, .terminated] := by
  refine HistInv.mode m .coSimulation _ ?_ ?_ ?_ ?_ ?_ ?_
  all_goals simp

theorem run_terminate (hm : m.Eff)
    (hst : ∀ ctx mv, (m.setStartValues ctx mv).terminateSimulation = mv.terminateSimulation)
    {fuel : Nat} : ∀ (ops : List (Op F)) {w w' : World F D} {outs},
    WInv (fun c => c.ctx.typ = .coSimulation ∧
      c.ctx.state ∈ [Mode.instantiated, .initializationMode, .stepComplete, .terminated]) w →
    WInv (fun c => c.mv.terminateSimulation = false) w →
    run m fuel w ops = .ret (w', outs) →
    (∀ p ∈ ops.zip outs, p.1.fn = .doStep → p.2.1 = .OK) →
    WInv (fun c => c.mv.terminateSimulation = false) w' := by
  intro ops
  induction ops with
  | nil => intro w w' outs _ h e _; cases e; exact h
  | cons op ops ih =>
    intro w w' outs hmode h e hs
    unfold run at e
    obtain ⟨⟨w1, s, o⟩, e1, e⟩ := Outcome.bind_eq_ret.1 e
    obtain ⟨⟨w2, l⟩, e2, e⟩ := Outcome.bind_eq_ret.1 e
    cases e
    simp only [List.zip_cons_cons, List.mem_cons, forall_eq_or_imp] at hs
    refine ih (step_inv hm.okOrError (modes_cs m) hmode op _ e1) ?_ e2 hs.2
    by_cases h1 : op.fn = .doStep
    · cases op <;> simp only [Op.fn, reduceCtorEq] at h1
      have hs := hs.1 rfl
      subst hs
      obtain ⟨-, hw, n, -, hl⟩ := doStep_loop hm.okOrError e1 (by simp)
      rw [hw]
      exact ⟨hl.terminated.2 rfl (.inr h.inst), h.slots, h.bufs⟩
    · by_cases h2 : op.fn = .newDiscreteStates
      · obtain ⟨w3, e3, log, -, -, hr⟩ := refused m fuel w op (by
          intro hin
          rw [h2] at hin
          have := hmode.inst.2
          simp [Spec.allowedIn] at hin this
          simp [hin] at this)
        rw [e1] at e3
        cases e3
        rw [hr]
        exact ⟨h.inst, h.slots, h.bufs⟩
      · rw [step_noEvent h1 h2] at e1
        exact step_inv hm.okOrError.noEvent (terminate_histInv hm hst false) h op _ e1

/-- **C24** over a history: as long as every `DoStep` returned `fmi2OK`, the next `DoStep` returns
`fmi2Discard` exactly if the FMU requests termination in this step. -/
theorem C24_history (hm : RefFMU2 m) {name guid resource functions loggingOn mem c l w₀}
    (hn : instantiate m name .coSimulation guid resource functions loggingOn mem = (some c, l))
    (h₀ : w₀.Initial c) {fuel fuel' : Nat} {ops : List (Op F)} {w outs}
    (hrun : run m fuel w₀ ops = .ret (w, outs))
    (hok : ∀ p ∈ ops.zip outs, p.1.fn = .doStep → p.2.1 = .OK) {w' : World F D} {ccp h : F} {s o}
    (e : step m fuel' w (.doStep ccp h) = .ret (w', s, o)) (hs : s ≠ .Error) :
    (s = .Discard ∧ SaysTerminated m w' true) ∨ (s = .OK ∧ SaysTerminated m w' false) := by
  have hst : ∀ ctx mv, (m.setStartValues ctx mv).terminateSimulation = mv.terminateSimulation := by
    cases hm <;> intros <;> rfl
  have hc : c.mv.terminateSimulation = false := by
    unfold instantiate at hn
    split at hn
    · simp at hn
    · simp at hn
    · rw [createModelInstance_mv hn]
      exact hst _ _
  have hw := run_terminate hm.eff hst ops (w := w₀) ?_ ?_ hrun hok
  · obtain ⟨hst, -⟩ := doStep_loop hm.eff.okOrError e hs
    have := says_terminated (m := m) hst
    rw [hw.inst] at this
    exact C24_iff_requested hm this e hs
  · refine .initial h₀ ?_
    obtain ⟨h1, h2, -⟩ := instantiate_ctx hn
    exact ⟨h1, by simp [h2]⟩
  · exact .initial h₀ hc

/-- Non-vacuity: Stair requests termination at time 9; the step from 0 to 20 is discarded there, and
the importer reads the time 9. -/
example : (Ex.run2 Stair.model .coSimulation (Ex.init2 ++ [.doStep (.fin 0) (.fin 5),
    .doStep (.fin 5) (.fin 20), .getBooleanStatus .terminated (some false),
    .getRealStatus .lastSuccessfulTime (some (.fin 0)), .getReal (some [0]) 1 (some [.fin 0])])).is
    (fun x => decide (x.2.drop 3 = [(.OK, .unit), (.Discard, .unit), (.OK, .bool (some true)),
      (.OK, .real (some (.fin 9))), (.OK, .reals (some [.fin 9]))])) = true := by
  decide +kernel

/-- The request survives `Reset`: after `Reset` of a Stair that terminated and a new initialisation
the first step is discarded, although the FMU does not request anything in it. So `fmi2Discard`
alone does not tell that termination was requested during this step. -/
theorem C24_violated : (Ex.run2 Stair.model .coSimulation (Ex.init2 ++ [.doStep (.fin 0) (.fin 20),
    .reset] ++ Ex.init2 ++ [.getInteger (some [1]) 1 (some [0]),
    .getBooleanStatus .terminated (some false), .doStep (.fin 0) (.fin 1),
    .getInteger (some [1]) 1 (some [0])])).is
    (fun x => decide (x.2.drop 4 = [(.OK, .unit), (.OK, .unit), (.OK, .unit), (.OK, .unit),
      (.OK, .ints (some [1])), (.OK, .bool (some true)), (.Discard, .unit),
      (.OK, .ints (some [1]))])) = true := by
  decide +kernel

end FMI2
end Verif
