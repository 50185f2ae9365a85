import Verif.Lemmas.OutDeriv
import Verif.Lemmas.ExReach

/-!
# C58: the derivatives of outputs are the values of the derivative variables

`Spec.derivativeOf` (`Spec/OutputDerivative.lean`) is the table of outputs and derivative variables from the model descriptions.
`Reads` (`Spec/Held.lean`): the getter, called at that moment, succeeds and gives the value.
-/

set_option linter.unusedSectionVars false

namespace Verif

namespace FMI2
variable {F D : Type} [Arith F] [HasInf F] {m : Model F D}

/-- **C58**, FMI 2.0, BouncingBall: `fmi2GetRealOutputDerivatives` succeeds exactly for the first derivatives of `h` and `v`, and gives the
values that `fmi2GetReal` reports for `der(h)` and `der(v)`. -/
theorem C58_fmi2 {w : World F (BouncingBall.Data F)} (hw : w.inst.ctx.state ∈ Spec.allowedIn .getRealOutputDerivatives)
    {vrs : List Nat} {orders : List Int} {p : List F} (ho : orders.length = vrs.length) (hp : p.length = vrs.length) (fuel : Nat) :
    if (∀ x ∈ vrs.zip orders, x.2 = 1 ∧ (Spec.derivativeOf x.1).isSome) then
      ∃ w' vs, step BouncingBall.model fuel w (.getRealOutputDerivatives (some vrs) vrs.length (some orders) (some p)) =
          .ret (w', .OK, .reals (some vs)) ∧ vs.length = vrs.length ∧
        ∀ x ∈ vrs.zip vs, ∃ r, Spec.derivativeOf x.1 = some r ∧ Reads BouncingBall.model w .float64 r x.2
    else ∃ w' o, step BouncingBall.model fuel w (.getRealOutputDerivatives (some vrs) vrs.length (some orders) (some p)) =
          .ret (w', .Error, o) := by
  have ha : allowed w.inst.ctx MASK_GetRealOutputDerivatives = true := (allowed_fn w.inst.ctx .getRealOutputDerivatives).2 hw
  have hr : w.inst.ctx.state ∈ Spec.allowedIn .getReal := by
    simp only [Spec.allowedIn] at hw ⊢
    revert hw
    cases w.inst.ctx.state <;> simp
  have h := BouncingBall.loop (N := 0) vrs orders p [] [] [] w.inst rfl rfl rfl ho hp
  simp only [List.nil_append] at h
  by_cases hall : ∀ x ∈ vrs.zip orders, x.2 = 1 ∧ (Spec.derivativeOf x.1).isSome
  · rw [if_pos hall] at h ⊢
    obtain ⟨c', e⟩ := h
    refine ⟨{ w with inst := c' }, vrs.map (BouncingBall.outDer w.inst.mv.data), ?_, ?_, ?_⟩
    · simp only [step, World.run, getRealOutputDerivatives, begin, beginFunction, if_pos ha]
      show (outputDerivLoop BouncingBall.getOutputDerivative (some vrs) (some orders) vrs.length 0 w.inst .OK (some p) >>- _) = _
      rw [e]; rfl
    · simp
    · intro x hx
      obtain ⟨h1, h2⟩ := BouncingBall.of_mem_zip_map hx
      obtain ⟨k, hk⟩ := BouncingBall.mem_zip_of_mem ho h1
      obtain ⟨r, hr'⟩ := Option.isSome_iff_exists.1 (hall _ hk).2
      have h3 := BouncingBall.outDer_val hr' w.inst.ctx.time w.inst.mv.data
      refine ⟨r, hr', ?_⟩
      rw [h2, h3.1]
      exact reads_lens .bouncingBall h3.2 (.inl rfl) hr
  · rw [if_neg hall] at h ⊢
    obtain ⟨c', q, e⟩ := h
    refine ⟨{ w with inst := c' }, .reals q, ?_⟩
    simp only [step, World.run, getRealOutputDerivatives, begin, beginFunction, if_pos ha]
    show (outputDerivLoop BouncingBall.getOutputDerivative (some vrs) (some orders) vrs.length 0 w.inst .OK (some p) >>- _) = _
    rw [e]; rfl

/-- **C58**, FMI 2.0: the other FMUs do not offer the function, it always fails. -/
theorem C58_fmi2_others {w : World F D} (fuel : Nat) {vrs n orders p} (hm : Unoffered2 m) :
    ∃ w' o, step m fuel w (.getRealOutputDerivatives vrs n orders p) = .ret (w', .Error, o) := by
  have hb : m.getOutputDerivative = none := by cases hm <;> rfl
  simp only [step, World.run, getRealOutputDerivatives, begin, beginFunction, hb]
  split <;> exact ⟨_, _, rfl⟩

/-- Not vacuous: the derivatives of both outputs of a falling ball. -/
example : ∃ w, Reachable (BouncingBall.model (F := XRat)) .coSimulation w ∧
    w.inst.ctx.state ∈ Spec.allowedIn .getRealOutputDerivatives ∧
    (step BouncingBall.model 1 w (.getRealOutputDerivatives (some [3, 1]) 2 (some [1, 1]) (some [.fin 0, .fin 0]))).is (fun x =>
      match x.2 with
      | (.OK, .reals p) => p == some [.fin (-981/100), .fin (-981/50000)]
      | _ => false) = true := by
  obtain ⟨x, e, h⟩ := Outcome.exists_of_is
    (r := Ex.run2 BouncingBall.model .coSimulation (Ex.init2 ++ [.doStep (.fin 0) (.fin (1/500))]))
    (p := fun x => decide (x.1.inst.ctx.state ∈ Spec.allowedIn .getRealOutputDerivatives) &&
      (step BouncingBall.model 1 x.1 (.getRealOutputDerivatives (some [3, 1]) 2 (some [1, 1]) (some [.fin 0, .fin 0]))).is fun x =>
      match x.2 with
      | (.OK, .reals p) => p == some [.fin (-981/100), .fin (-981/50000)]
      | _ => false)
    (by decide +kernel)
  simp only [Bool.and_eq_true, decide_eq_true_eq] at h
  exact ⟨x.1, Ex.reach_run2 e, h.1, h.2⟩

end FMI2

namespace FMI3
variable {F D : Type} [Arith F] [HasInf F] {m : Model F D}

/-- **C58**, FMI 3.0, BouncingBall: `fmi3GetOutputDerivatives` succeeds exactly for the first derivatives of `h` and `v`, and gives the
values that `fmi3GetFloat64` reports for `der(h)` and `der(v)`. In the mode Step Discarded, which no call leads to, the getter is not allowed. -/
theorem C58_fmi3 {w : World F (BouncingBall.Data F)} (hw : w.inst.ctx.state ∈ Spec.allowedIn .getOutputDerivatives)
    (hr : w.inst.ctx.state ∈ Spec.allowedIn (.get .float64)) {vrs : List Nat} {orders : List Int} {p : List F} (ho : orders.length = vrs.length) (hp : p.length = vrs.length) (fuel : Nat) :
    if (∀ x ∈ vrs.zip orders, x.2 = 1 ∧ (Spec.derivativeOf x.1).isSome) then
      ∃ w' vs, step BouncingBall.model fuel w (.getOutputDerivatives (some vrs) vrs.length (some orders) (some p)) =
          .ret (w', .OK, .reals (some vs)) ∧ vs.length = vrs.length ∧
        ∀ x ∈ vrs.zip vs, ∃ r, Spec.derivativeOf x.1 = some r ∧ Reads BouncingBall.model w .float64 r x.2
    else ∃ w' o, step BouncingBall.model fuel w (.getOutputDerivatives (some vrs) vrs.length (some orders) (some p)) =
          .ret (w', .Error, o) := by
  have ha : allowed w.inst.ctx MASK_GetOutputDerivatives = true := (allowed_fn w.inst.ctx .getOutputDerivatives).2 hw
  have h := BouncingBall.loop (N := 0) vrs orders p [] [] [] w.inst rfl rfl rfl ho hp
  simp only [List.nil_append] at h
  by_cases hall : ∀ x ∈ vrs.zip orders, x.2 = 1 ∧ (Spec.derivativeOf x.1).isSome
  · rw [if_pos hall] at h ⊢
    obtain ⟨c', e⟩ := h
    refine ⟨{ w with inst := c' }, vrs.map (BouncingBall.outDer w.inst.mv.data), ?_, ?_, ?_⟩
    · simp only [step, World.run, getOutputDerivatives, begin, beginFunction, if_pos ha]
      show (outputDerivLoop BouncingBall.getOutputDerivative (some vrs) (some orders) vrs.length 0 w.inst .OK (some p) >>- _) = _
      rw [e]; rfl
    · simp
    · intro x hx
      obtain ⟨h1, h2⟩ := BouncingBall.of_mem_zip_map hx
      obtain ⟨k, hk⟩ := BouncingBall.mem_zip_of_mem ho h1
      obtain ⟨r, hr'⟩ := Option.isSome_iff_exists.1 (hall _ hk).2
      have h3 := BouncingBall.outDer_val hr' w.inst.ctx.time w.inst.mv.data
      refine ⟨r, hr', ?_⟩
      rw [h2, h3.1]
      exact reads_lens .bouncingBall h3.2 hr
  · rw [if_neg hall] at h ⊢
    obtain ⟨c', q, e⟩ := h
    refine ⟨{ w with inst := c' }, .reals q, ?_⟩
    simp only [step, World.run, getOutputDerivatives, begin, beginFunction, if_pos ha]
    show (outputDerivLoop BouncingBall.getOutputDerivative (some vrs) (some orders) vrs.length 0 w.inst .OK (some p) >>- _) = _
    rw [e]; rfl

/-- **C58**, FMI 3.0: the other FMUs do not offer the function, it always fails. -/
theorem C58_fmi3_others {w : World F D} (fuel : Nat) {vrs n orders p} (hm : Unoffered3 m) :
    ∃ w' o, step m fuel w (.getOutputDerivatives vrs n orders p) = .ret (w', .Error, o) := by
  have hb : m.getOutputDerivative = none := by cases hm <;> rfl
  simp only [step, World.run, getOutputDerivatives, begin, beginFunction, hb]
  split <;> exact ⟨_, _, rfl⟩

/-- Not vacuous: the derivatives of both outputs of a falling ball. -/
example : ∃ w, Reachable (BouncingBall.model (F := XRat)) .coSimulation w ∧
    w.inst.ctx.state ∈ Spec.allowedIn .getOutputDerivatives ∧ w.inst.ctx.state ∈ Spec.allowedIn (.get .float64) ∧
    (step BouncingBall.model 1 w (.getOutputDerivatives (some [3, 1]) 2 (some [1, 1]) (some [.fin 0, .fin 0]))).is (fun x =>
      x.2 == (.OK, .reals (some [.fin (-981/100), .fin (-981/50000)]))) = true := by
  obtain ⟨x, e, h⟩ := Outcome.exists_of_is
    (r := Ex.runCS3 BouncingBall.model false false (Ex.init3 ++ [.doStep (.fin 0) (.fin (1/500)) Ex.stepOut]))
    (p := fun x => decide (x.1.inst.ctx.state ∈ Spec.allowedIn .getOutputDerivatives ∧ x.1.inst.ctx.state ∈ Spec.allowedIn (.get .float64)) &&
      (step BouncingBall.model 1 x.1 (.getOutputDerivatives (some [3, 1]) 2 (some [1, 1]) (some [.fin 0, .fin 0]))).is fun x =>
      x.2 == (.OK, .reals (some [.fin (-981/100), .fin (-981/50000)])))
    (by decide +kernel)
  simp only [Bool.and_eq_true, decide_eq_true_eq] at h
  exact ⟨x.1, Ex.reach_runCS3 e, h.1.1, h.1.2, h.2⟩

end FMI3
end Verif
