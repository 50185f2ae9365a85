import Verif.Props.C61
import Verif.Lemmas.StateSpaceLegal
import Verif.Lemmas.StateSpaceRun

/-!
# C61: a call of StateSpace succeeds exactly if it is legal

The variables of StateSpace are arrays, so its Get and Set functions must be given all elements of all variables of the call: `count` in
Verif/Spec/LegalStateSpace.lean is the number of elements of a variable.
-/

set_option linter.unusedSectionVars false

namespace Verif.FMI3
variable {F : Type} [Arith F] [HasInf F]

/-- **C61** for StateSpace: after any history, and unless the instance has been terminated or a call has failed, a call other than
`fmi3DoStep` that returns, returns `fmi3OK` exactly if the function is allowed in the current mode and its arguments agree with the model
description: the value references are variables of the type, and the number of values is the number of all their elements. -/
theorem C61_stateSpace_partial {t : IType} {fuel : Nat} {w w' : World F (StateSpace.Data F)} (hw : Reachable StateSpace.model t w)
    (ht : w.inst.ctx.state ≠ .terminated) {op : Op F} {s o} (hd : op.fn ≠ .doStep)
    (e : step StateSpace.model fuel w op = .ret (w', s, o)) :
    s = .OK ↔ w.inst.ctx.state ∈ Spec.allowedIn op.fn ∧ ArgsStateSpace StateSpace.model w op :=
  StateSpace.step_okIff ((StateSpace.Dim.reachable hw).resolve_left ht) hd _ e

/-- **C61** for `fmi3DoStep` of StateSpace: after any history that does not restore an FMU state or continue after the FMU asked to end the
simulation, a communication step that starts at the expected communication point, has a positive size and ends at or before the stop time
returns `fmi3OK`. -/
theorem C61_doStep_stateSpace_partial {t : IType} {c : Comp XRat (StateSpace.Data XRat)} {w₀}
    (hn : New StateSpace.model t c) (h₀ : w₀.Initial c) {fuel fuel' : Nat} {ops : List (Op XRat)} {w w' outs}
    (hrun : run StateSpace.model fuel w₀ ops = .ret (w, outs)) (hops : ∀ op ∈ ops, ∀ i, op ≠ .setFMUState i)
    (hterm : ∀ o ∈ outs, ¬ o.2.terminates) (hw : ReachableProper StateSpace.model t w) (hs : w.inst.ctx.state ∈ Spec.allowedIn .doStep)
    {ccp h : XRat} {out : StepOut XRat} (ha : (Clock.new.run3 ops outs).Accepts ccp h) {s o}
    (e : step StateSpace.model fuel' w (.doStep ccp h out) = .ret (w', s, o)) : s = .OK := by
  have hok := (RefFMU3.stateSpace (F := XRat)).eff.okOrError
  have h1 := run_clock hok ops hops _ hrun hterm
  have h2 : c.clock = .new := by
    obtain ⟨_, _, _, _, _, _, _, c₀, _, _, _, _, _, _, e, rfl⟩ := hn.created
    have := createModelInstance_clock e
    exact this
  simp only [h₀.inst, h2] at h1
  rw [← h1] at ha
  obtain ⟨k1, k2, k3⟩ := ha.checks
  have hst : w.inst.ctx.state = .stepMode := by simpa [Spec.allowedIn] using hs
  simp only [step, World.run, doStep, begin, beginFunction] at e
  obtain ⟨⟨c', s', u⟩, e1, e⟩ := Outcome.bind_eq_ret.1 e
  cases e
  rw [if_pos (show allowed w.inst.ctx MASK_DoStep = true from (allowed_fn _ .doStep).2 hs), if_neg (by simpa [Comp.clock] using k1),
    if_neg (by simpa using k2), if_neg (by simpa [Comp.clock] using k3)] at e1
  split at e1
  · cases e1
  · obtain ⟨n, c1, s1, ehn, r, -, hl, hf⟩ := Loop.of_eq hok e1
    obtain ⟨rfl, -⟩ := hl.armed rfl (hw.armed hst)
    unfold finish doStepEnd at hf
    rw [if_pos rfl] at hf
    split at hf
    · cases hf
    · cases hf; rfl

/-- Non-vacuity: StateSpace after a step. Reading the time, the matrix A and the output takes 13 values, not 3; A and the input can be
set; the states cannot be set in Step Mode, and the number of inputs is no Float64 variable. -/
example : ∃ w outs, Ex.runCS3 (StateSpace.model : Model XRat _) false false (Ex.init3 ++ [.doStep (.fin 0) (.fin (1 / 1000)) Ex.stepOut]) =
      .ret (w, outs) ∧ Ex.allOK outs = true ∧ Reachable StateSpace.model .coSimulation w ∧ w.inst.ctx.state ≠ .terminated ∧
    w.inst.ctx.state ∈ Spec.allowedIn (.get .float64) ∧
    ArgsStateSpace StateSpace.model w (.get .float64 (some [0, 4, 10]) 3 (some (List.replicate 13 (.fin 0))) 13) ∧
    ¬ArgsStateSpace StateSpace.model w (.get .float64 (some [0, 4, 10]) 3 (some (List.replicate 13 (.fin 0))) 3) ∧
    ArgsStateSpace StateSpace.model w (.set .float64 (some [4, 9]) 2 (some (List.replicate 12 (.fin 1))) 12) ∧
    ¬ArgsStateSpace StateSpace.model w (.set .float64 (some [11]) 1 (some (List.replicate 3 (.fin 1))) 3) ∧
    ¬ArgsStateSpace StateSpace.model w (.get .float64 (some [1]) 1 (some [.fin 0]) 1) := by
  obtain ⟨⟨w, outs⟩, e, h⟩ := Outcome.exists_of_is (r := Ex.runCS3 (StateSpace.model : Model XRat _) false false (Ex.init3 ++
    [.doStep (.fin 0) (.fin (1 / 1000)) Ex.stepOut])) (p := fun x => Ex.allOK x.2 && decide (x.1.inst.ctx.state = .stepMode)) (by decide +kernel)
  simp only [Bool.and_eq_true, decide_eq_true_eq] at h
  obtain ⟨h1, h2⟩ := h
  have refs : ∀ l : List Nat, References (some l) l := fun l i r h => ⟨l, rfl, h⟩
  have uniq : ∀ (l rs : List Nat), References (some l) rs → rs.length = l.length → rs = l := fun l rs h hl =>
    RefsAt.unique (refsAt_zero.2 h) (refsAt_zero.2 (refs l)) hl
  refine ⟨w, outs, e, h1, Ex.reach_runCS3 e, by rw [h2]; decide, by rw [h2]; decide, .inr ⟨[0, 4, 10], rfl, refs _, ?_, rfl, by simp⟩, ?_,
    .inr ⟨[4, 9], rfl, refs _, ?_, rfl, by simp⟩, ?_, ?_⟩
  · intro r hr
    simp only [List.mem_cons, List.not_mem_nil, or_false] at hr
    simp only [StateSpace.declares]; omega
  · rintro (h | ⟨rs, e1, e2, e3, e4, -⟩)
    · cases h
    · cases uniq _ _ e2 e1
      revert e4; decide
  · intro r hr
    simp only [List.mem_cons, List.not_mem_nil, or_false] at hr
    exact ⟨rfl, .inl (by omega)⟩
  · rintro (h | ⟨rs, e1, e2, e3, e4, -⟩)
    · cases h
    · cases uniq _ _ e2 e1
      obtain ⟨-, h | ⟨-, h⟩⟩ := e3 11 (by simp)
      · omega
      · rw [h2] at h; simp at h
  · rintro (h | ⟨rs, e1, e2, e3, e4, -⟩)
    · cases h
    · cases uniq _ _ e2 e1
      have := e3 1 (by simp)
      simp only [StateSpace.declares] at this; omega

/-- Non-vacuity of `C61_doStep_stateSpace_partial`: a step of two solver steps after the initialization. -/
example : ∃ w outs, Ex.runCS3 (StateSpace.model : Model XRat _) false false Ex.init3 = .ret (w, outs) ∧ w.inst.ctx.state ∈ Spec.allowedIn .doStep ∧
    (∀ op ∈ (Ex.init3 : List (Op XRat)), ∀ i, op ≠ .setFMUState i) ∧ (∀ o ∈ outs, ¬ o.2.terminates) ∧
    (Clock.new.run3 Ex.init3 outs).Accepts (.fin 0) (.fin (1 / 500)) := by
  obtain ⟨⟨w, outs⟩, e, h⟩ := Outcome.exists_of_is (r := Ex.runCS3 (StateSpace.model : Model XRat _) false false Ex.init3)
    (p := fun x => decide (x.1.inst.ctx.state = .stepMode) && decide (x.2 = [(.OK, .unit), (.OK, .unit)])) (by decide +kernel)
  simp only [Bool.and_eq_true, decide_eq_true_eq] at h
  obtain ⟨h1, rfl⟩ := h
  refine ⟨w, _, e, by rw [h1]; decide, by simp [Ex.init3], by simp [Out.terminates], .mk (e := 0) ?_ (.refl _) (by decide +kernel) ?_⟩
  · decide +kernel
  · first | exact .inl (by decide +kernel) | exact .inr ⟨_, rfl, .inl (by decide +kernel)⟩

end Verif.FMI3
