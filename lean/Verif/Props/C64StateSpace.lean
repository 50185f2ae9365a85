import Verif.Props.C61StateSpace
import Verif.Props.C64
import Verif.Lemmas.StateSpaceSuccess

/-! # C64: every legal call of StateSpace returns, with OK -/

set_option linter.unusedSectionVars false

namespace Verif.FMI3

section
variable {F : Type} [Arith F] [HasInf F]

/-- **C64** for StateSpace: after any history, and unless the instance has been terminated or a call has failed, a call other than
`fmi3DoStep` that is allowed in the current mode and whose arguments are as the model description requires returns `fmi3OK`. The number of
values of a Get or Set function is the number of all elements of its variables (`ArgsStateSpace`), and the arrays are as long as announced
(`WellFormed`). -/
theorem C64_stateSpace_partial {t : IType} {w : World F (StateSpace.Data F)} (hw : Reachable StateSpace.model t w)
    (ht : w.inst.ctx.state ≠ .terminated) {op : Op F} (hd : op.fn ≠ .doStep) (hs : w.inst.ctx.state ∈ Spec.allowedIn op.fn)
    (ha : ArgsStateSpace StateSpace.model w op) (wf : WellFormed w op) (fuel : Nat) :
    ∃ w' o, step StateSpace.model fuel w op = .ret (w', .OK, o) := by
  obtain ⟨⟨w', s, o⟩, e⟩ := StateSpace.legal_ret hw hd wf (StateSpace.ArgsStateSpace.enough ha) fuel
  obtain rfl := (C61_stateSpace_partial hw ht hd e).2 ⟨hs, ha⟩
  exact ⟨w', o, e⟩

end

/-- **C64** for `fmi3DoStep` of StateSpace: in a Co-Simulation session that was initialized with the start time `start`, after any calls
(none of which restored an FMU state, set the time, or continued after the FMU asked to end the simulation), a communication step that
starts at the expected communication point, has a positive size and ends at or before the stop time returns `fmi3OK`. -/
theorem C64_doStep_stateSpace_partial {start : Rat} {w w₀ w₁ : World XRat (StateSpace.Data XRat)}
    (hr : Reachable StateSpace.model .coSimulation w) {f₀ o₀ sd stop}
    (e₀ : step StateSpace.model f₀ w (.enterInitializationMode (.fin start) sd stop) = .ret (w₀, .OK, o₀))
    {f₁ : Nat} {ops : List (Op XRat)} {outs} (hops : ∀ op ∈ ops, ¬ EndsSession op ∧ op.fn ≠ .setTime)
    (e₁ : run StateSpace.model f₁ w₀ ops = .ret (w₁, outs)) (hterm : ∀ o ∈ outs, ¬ o.2.terminates)
    (hw : ReachableProper StateSpace.model .coSimulation w₁) (hs : w₁.inst.ctx.state ∈ Spec.allowedIn .doStep)
    {a d : Rat} {out : StepOut XRat} (wf : WellFormed w₁ (.doStep (.fin a) (.fin d) out))
    (ha : (Clock.run3 ⟨.fin start, if sd then stop else .pinf⟩ ops outs).Accepts (.fin a) (.fin d)) {K : Nat}
    (hK : 2 * |a + d| + 1 ≤ start + K * (1 / 1000)) (hb : f₁ * ops.length + K < 2 ^ 64) {fuel : Nat} (hf : K < fuel) :
    ∃ w' o, step StateSpace.model fuel w₁ (.doStep (.fin a) (.fin d) out) = .ret (w', .OK, o) := by
  have hok := (RefFMU3.stateSpace (F := XRat)).eff.okOrError
  obtain ⟨hn0, ht0, hs0, hc0⟩ := init_start hok hr e₀
  obtain ⟨n, hn', hadv⟩ := Outcome.all_ret.1 (e₁ ▸ run_advanced hok (fuel := f₁) (w := w₀) ops hops)
  rw [show (StateSpace.model : Model XRat _).h = .fin (1 / 1000) from rfl] at hadv
  obtain ⟨hT, hN⟩ := Ticks.of_advanced hadv hn0 hs0 ht0 (by omega)
  have hn'' : (0 : Rat) ≤ n * (1 / 1000) := mul_nonneg (by exact_mod_cast Nat.zero_le n) (by decide +kernel)
  have hcl := run_clock hok ops (fun op hop i e => (hops op hop).1 (by subst e; exact .inr (.inr rfl))) _ e₁ hterm
  simp only [hc0] at hcl
  exact StateSpace.doStep_legal hw (by simpa [Spec.allowedIn] using hs) wf (hcl ▸ ha) hT (by linarith) (by rw [hN]; omega) hf

/-- Non-vacuity of `C64_stateSpace_partial`: reading the time, A and the output and setting A and the input in Step Mode. -/
example : ∃ w outs, Ex.runCS3 (StateSpace.model : Model XRat _) false false (Ex.init3 ++ [.doStep (.fin 0) (.fin (1 / 1000)) Ex.stepOut]) =
      .ret (w, outs) ∧ Reachable StateSpace.model .coSimulation w ∧ w.inst.ctx.state ≠ .terminated ∧
    ∀ op ∈ [(.get .float64 (some [0, 4, 10]) 3 (some (List.replicate 13 (.fin 0))) 13 : Op XRat),
        .set .float64 (some [4, 9]) 2 (some (List.replicate 12 (.fin 1))) 12],
      op.fn ≠ .doStep ∧ w.inst.ctx.state ∈ Spec.allowedIn op.fn ∧ ArgsStateSpace StateSpace.model w op ∧ WellFormed w op := by
  obtain ⟨⟨w, outs⟩, e, h⟩ := Outcome.exists_of_is (r := Ex.runCS3 (StateSpace.model : Model XRat _) false false (Ex.init3 ++
    [.doStep (.fin 0) (.fin (1 / 1000)) Ex.stepOut])) (p := fun x => decide (x.1.inst.ctx.state = .stepMode)) (by decide +kernel)
  simp only [decide_eq_true_eq] at h
  have refs : ∀ l : List Nat, References (some l) l := fun l i r h => ⟨l, rfl, h⟩
  refine ⟨w, outs, e, Ex.reach_runCS3 e, by rw [h]; decide, fun op hop => ?_⟩
  simp only [List.mem_cons, List.not_mem_nil, or_false] at hop
  rcases hop with rfl | rfl
  · refine ⟨by simp [Op.fn], by rw [h]; simp [Op.fn, Spec.allowedIn], .inr ⟨[0, 4, 10], rfl, refs _, ?_, rfl, by simp⟩, .inr ⟨_, rfl, by simp⟩,
      .inr ⟨_, rfl, by simp⟩⟩
    intro r hr
    simp only [List.mem_cons, List.not_mem_nil, or_false] at hr
    simp only [StateSpace.declares]; omega
  · refine ⟨by simp [Op.fn], by rw [h]; simp [Op.fn, Spec.allowedIn], .inr ⟨[4, 9], rfl, refs _, ?_, rfl, by simp⟩, .inr ⟨_, rfl, by simp⟩,
      .inr ⟨_, rfl, by simp⟩, fun _ _ _ _ => trivial⟩
    intro r hr
    simp only [List.mem_cons, List.not_mem_nil, or_false] at hr
    exact ⟨rfl, .inl (by omega)⟩

/-- Non-vacuity of `C64_doStep_stateSpace_partial`: the step after a step. -/
example {c : Comp XRat (StateSpace.Data XRat)} (hc : Ex.newCS3 StateSpace.model false false = some c) : ∃ w₀ w₁ o₀ outs,
    step StateSpace.model 1 (.fresh c) (.enterInitializationMode (.fin 0) false (.fin 0)) = .ret (w₀, .OK, o₀) ∧
    run StateSpace.model 5 w₀ [.exitInitializationMode, .doStep (.fin 0) (.fin (1/1000)) Ex.stepOut] = .ret (w₁, outs) ∧
    ∃ w' o, step StateSpace.model 2000 w₁ (.doStep (.fin (1/1000)) (.fin (1/50)) Ex.stepOut) = .ret (w', .OK, o) := by
  obtain ⟨c', hc', h⟩ := exists_of_any (o := Ex.newCS3 (StateSpace.model : Model XRat _) false false) (p := fun c =>
    (step StateSpace.model 1 (.fresh c) (.enterInitializationMode (.fin 0) false (.fin 0))).is fun x => x.2.1 == .OK &&
      (run StateSpace.model 5 x.1 [.exitInitializationMode, .doStep (.fin 0) (.fin (1/1000)) Ex.stepOut]).is fun y =>
        decide (y.2 = [(.OK, .unit), (.OK, .step ⟨some false, some false, some false, some (.fin (1/1000))⟩)]) &&
        decide (y.1.inst.ctx.state = .stepMode)) (by decide +kernel)
  cases hc.symm.trans hc'
  obtain ⟨⟨w₀, s₀, o₀⟩, e₀, h⟩ := Outcome.exists_of_is h
  simp only [Bool.and_eq_true, beq_iff_eq] at h
  obtain ⟨rfl, h⟩ := h
  obtain ⟨⟨w₁, outs⟩, e₁, h⟩ := Outcome.exists_of_is h
  simp only [Bool.and_eq_true, decide_eq_true_eq] at h
  obtain ⟨rfl, h2⟩ := h
  have hp : ReachableProper StateSpace.model .coSimulation w₁ := by
    have h1 : ReachableProper StateSpace.model .coSimulation (.fresh c) := .new (.cs (Prod.ext hc rfl)) ⟨rfl, fun _ => rfl, fun _ _ e => by cases e⟩
    have h2 := ReachableProper.call h1 e₀ (by intro h; cases h)
    simp only [run] at e₁
    obtain ⟨⟨v, s, o⟩, e2, e3⟩ := Outcome.bind_eq_ret.1 e₁
    obtain ⟨⟨v1, outs⟩, e3, e4⟩ := Outcome.bind_eq_ret.1 e3
    obtain ⟨⟨v', s', o'⟩, e5, e6⟩ := Outcome.bind_eq_ret.1 e3
    have h3 := ReachableProper.call h2 e2 (by intro h; cases h)
    cases e6
    cases e4
    exact ReachableProper.call h3 e5 (by intro h; cases h)
  refine ⟨w₀, w₁, o₀, _, e₀, e₁, C64_doStep_stateSpace_partial (Ex.reachableCS3 hc) e₀ (by simp [EndsSession, Op.fn]) e₁
    (by simp [Out.terminates]) hp (by rw [h2]; decide) ⟨by simp [Ex.stepOut], by simp [Ex.stepOut], by simp [Ex.stepOut], by simp [Ex.stepOut]⟩
    (.mk (e := 1/1000) (by decide +kernel) (.refl _) (by decide +kernel) (.inl rfl)) (K := 1080) (by decide +kernel) (by decide) (by decide)⟩

end Verif.FMI3
