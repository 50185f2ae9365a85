import Verif.Lemmas.NoHang
import Verif.Lemmas.ExReach
import Verif.Lemmas.OdeRef
import Verif.Props.C20

/-!
# C26: `DoStep` always returns

`DoStep` runs a loop that may not end. The model takes the number of iterations it may run, `fuel`, as an argument, and
has the outcome `hang` when they did not suffice. So "the call returns" is: from some `fuel` on the outcome is not
`hang`.
-/

set_option linter.unusedSectionVars false

namespace Verif

namespace FMI2
variable {D : Type} {m : Model XRat D}

/-- **C26** (FMI 2.0), partial: in a Co-Simulation session with start time `start`, after any calls, whatever they
returned, `DoStep` with finite arguments returns after at most `K` solver steps, where `K` is the number of solver steps
that lead twice as far as the end point of the step. `K`, and the steps made so far, must not exceed the range of the
step counter (64 bits). What is missing: steps so long that the step counter wraps around (`C26_violated_wrap`), an
infinite step size (`C26_violated_inf`), and NaN (`C26_violated_nan`). -/
theorem C26_fmi2_partial (hm : RefFMU2 m) {h start : Rat} (hh : m.h = .fin h) {w w₀ w₁ : World XRat D}
    (hr : Reachable m .coSimulation w) {f₀ o₀ sd stop}
    (e₀ : step m f₀ w (.setupExperiment (.fin start) sd stop) = .ret (w₀, .OK, o₀))
    {f₁ : Nat} {ops : List (Op XRat)} {outs} (hops : ∀ op ∈ ops, ¬ EndsSession op)
    (e₁ : run m f₁ w₀ ops = .ret (w₁, outs)) {a d : Rat} {K : Nat}
    (hK : 2 * |a + d| + 1 ≤ start + K * h) (hb : f₁ * ops.length + K < 2 ^ 64) {fuel : Nat} (hf : K < fuel) :
    step m fuel w₁ (.doStep (.fin a) (.fin d)) ≠ .hang := by
  have hok := hm.eff.okOrError
  have h0 : 0 ≤ h := by cases hm <;> cases hh <;> decide +kernel
  obtain ⟨hw, hn0, ht0, hs0, -⟩ := setup_start hok hr e₀
  obtain ⟨-, n, hn, ha⟩ := Outcome.all_ret.1 (e₁ ▸ run_advanced hok (fuel := f₁) ops hw hops)
  rw [hh] at ha
  obtain ⟨hT, hN⟩ := Ticks.of_advanced ha hn0 hs0 ht0 (by omega)
  have hn' : (0 : Rat) ≤ n * h := mul_nonneg (by exact_mod_cast Nat.zero_le n) h0
  have key : (doStepLoop m (.fin (a + d)) fuel w₁.inst .OK).Ends :=
    FMI2.loop_ends hm.ends hok hh h0 hT (by rw [hN]; omega) (by linarith) hf
  show (step m fuel w₁ (.doStep (.fin a) (.fin d))).Ends
  simp only [step, World.run, doStep, begin, beginFunction, XRat.add_fin]
  refine .bind ?_ fun _ => .ret _
  exact .ite (.ite (.ret _) (.ite (.ret _) (.ite (.ret _) key))) (.ret _)

/-- Non-vacuity: a step of Dahlquist from 0 over 1000 needs at most 20010 iterations. -/
example {w₀ : World XRat (Dahlquist.Data XRat)} {c o}
    (hc : Ex.new2 Dahlquist.model .coSimulation = some c)
    (e : step Dahlquist.model 0 (.fresh c) (.setupExperiment (.fin 0) false (.fin 0)) = .ret (w₀, .OK, o))
    {w₁ : World XRat (Dahlquist.Data XRat)} {outs}
    (e' : run Dahlquist.model 0 w₀ [.enterInitializationMode, .exitInitializationMode] = .ret (w₁, outs)) :
    step Dahlquist.model 20011 w₁ (.doStep (.fin 0) (.fin 1000)) ≠ .hang :=
  C26_fmi2_partial (h := 1 / 10) .dahlquist rfl (Ex.reachable2 hc) e (by simp [EndsSession, Op.fn]) e'
    (K := 20010) (by decide +kernel) (by decide) (by decide)

/-- Dahlquist initialized at time 0 with the stop time `stop` (infinity: undefined). -/
theorem dahlquist_hangs {sd : Bool} {stop d : XRat}
    (hok : (Ex.run2 Dahlquist.model .coSimulation [.setupExperiment (.fin 0) sd stop, .enterInitializationMode,
      .exitInitializationMode]).is (fun x => decide (x.2 = [(.OK, .unit), (.OK, .unit), (.OK, .unit)] ∧
        x.1.inst.startTime = .fin 0 ∧ x.1.inst.ctx.time = .fin 0 ∧ x.1.inst.mv.terminateSimulation = false ∧
        x.1.inst.nextCommunicationPoint = .fin 0 ∧ allowed x.1.inst.ctx MASK_DoStep = true ∧
        x.1.inst.ctx.state = .stepComplete) &&
        !((x.1.inst.stopTime <. (Arith.add (.fin 0) d)) && !isClose (Arith.add (.fin 0) d) x.1.inst.stopTime)) = true)
    (P : Comp XRat (Dahlquist.Data XRat) → Prop)
    (hP : ∀ c, P c → reached Dahlquist.model (Arith.add (.fin 0) d) c = false)
    (hs : ∀ c c', P c → Frame (advanceTime Dahlquist.model c) c' → P c')
    (h0 : ∀ c : Comp XRat (Dahlquist.Data XRat), c.startTime = .fin 0 → c.ctx.time = .fin 0 → P c)
    (hd : (d <=. (Arith.lit 0 : XRat)) = false) :
    ∃ w, Ex.run2 Dahlquist.model .coSimulation [.setupExperiment (.fin 0) sd stop, .enterInitializationMode,
        .exitInitializationMode] = .ret (w, [(.OK, .unit), (.OK, .unit), (.OK, .unit)]) ∧
      Reachable Dahlquist.model .coSimulation w ∧
      ∀ fuel, step Dahlquist.model fuel w (.doStep (.fin 0) d) = .hang := by
  obtain ⟨⟨w, outs⟩, hp, hx⟩ := Outcome.exists_of_is hok
  simp only [Bool.and_eq_true, decide_eq_true_eq, Bool.not_eq_true'] at hx
  obtain ⟨⟨rfl, a1, a2, a3, a4, a5, a6⟩, hst⟩ := hx
  have hr := Ex.reach_run2 hp
  refine ⟨w, hp, hr, fun fuel => ?_⟩
  have hm : RefFMU2 (Dahlquist.model : Model XRat _) := .dahlquist
  obtain ⟨hl, hi⟩ := hr.ready Dahlquist.ode hm
  have hconf : Dahlquist.ode.Configured w.inst := hi.resolve_left (by rw [a6]; simp [Mode.early])
  have := FMI2.hangs Dahlquist.ode hm.eff.okOrError rfl P hP hs (hconf.ready hl) a3 (h0 _ a1 a2) fuel
  have hc : isClose (.fin 0 : XRat) (.fin 0) = true := by decide +kernel
  simp only [step, World.run, doStep, begin, beginFunction, a4, a5, hc, hd, hst, this]
  rfl

/-- **C26** fails for an infinite step size, although the stop time 1 was set. -/
theorem C26_violated_inf : ∃ w, Ex.run2 Dahlquist.model .coSimulation
      [.setupExperiment (.fin 0) true (.fin 1), .enterInitializationMode, .exitInitializationMode] =
        .ret (w, [(.OK, .unit), (.OK, .unit), (.OK, .unit)]) ∧
    Reachable Dahlquist.model .coSimulation w ∧
    ∀ fuel, step Dahlquist.model fuel w (.doStep (.fin 0) .pinf) = .hang :=
  dahlquist_hangs (by decide +kernel) (fun _ => True) (fun c _ => by rw [reached]; exact Bool.and_eq_false_imp.2 (by cases (c.ctx.time +. Dahlquist.model.h) <;> simp [Arith.lt, XRat.lt, Arith.add, XRat.add]))
    (fun _ _ _ _ => trivial) (fun _ _ _ => trivial) (by decide +kernel)

/-- **C26** fails for a step size that is not a number. -/
theorem C26_violated_nan : ∃ w, Ex.run2 Dahlquist.model .coSimulation
      [.setupExperiment (.fin 0) true (.fin 1), .enterInitializationMode, .exitInitializationMode] =
        .ret (w, [(.OK, .unit), (.OK, .unit), (.OK, .unit)]) ∧
    Reachable Dahlquist.model .coSimulation w ∧
    ∀ fuel, step Dahlquist.model fuel w (.doStep (.fin 0) .nan) = .hang :=
  dahlquist_hangs (by decide +kernel) (fun _ => True) (fun c _ => by rw [reached]; exact Bool.and_eq_false_imp.2 (by cases (c.ctx.time +. Dahlquist.model.h) <;> simp [Arith.lt, XRat.lt, Arith.add, XRat.add]))
    (fun _ _ _ _ => trivial) (fun _ _ _ => trivial) (by decide +kernel)

/-- **C26** fails for steps of at least 2^64 solver steps: the step counter wraps around, and the time with it. -/
theorem C26_violated_wrap : ∃ w, Ex.run2 Dahlquist.model .coSimulation
      [.setupExperiment (.fin 0) false (.fin 0), .enterInitializationMode, .exitInitializationMode] =
        .ret (w, [(.OK, .unit), (.OK, .unit), (.OK, .unit)]) ∧
    Reachable Dahlquist.model .coSimulation w ∧
    ∀ fuel, step Dahlquist.model fuel w (.doStep (.fin 0) (.fin (2 ^ 64 / 10))) = .hang := by
  refine dahlquist_hangs (by decide +kernel)
    (fun c => c.startTime = .fin 0 ∧ ∃ t : Rat, c.ctx.time = .fin t ∧ t + 1 / 10 ≤ 2 ^ 64 / 10) ?_ ?_ ?_
    (by decide +kernel)
  · rintro c ⟨-, t, ht, hle⟩
    rw [XRat.add_fin, reached_fin_false (h := 1 / 10) rfl ht]
    exact fun h => absurd h.1 (by linarith)
  · rintro c c' ⟨h1, -⟩ f
    refine ⟨f.startTime.trans h1, ((c.nSteps + 1) % 2 ^ 64 : Nat) * (1 / 10), ?_, ?_⟩
    · have : c'.ctx.time = (advanceTime Dahlquist.model c).ctx.time := congrArg Ctx.time f.ctx
      rw [this]
      show c.startTime +. (Arith.lit _ *. _) = _
      rw [h1]
      simp [Dahlquist.model]
    · have : (c.nSteps + 1) % 2 ^ 64 + 1 ≤ 2 ^ 64 := Nat.mod_lt _ (by decide)
      have h2 : (((c.nSteps + 1) % 2 ^ 64 : Nat) : Rat) + 1 ≤ 2 ^ 64 := by exact_mod_cast this
      generalize (((c.nSteps + 1) % 2 ^ 64 : Nat) : Rat) = y at h2 ⊢
      norm_num at h2 ⊢
      linarith
  · intro c h1 h2
    exact ⟨h1, 0, h2, by decide +kernel⟩

end FMI2

namespace FMI3
variable {D : Type} {m : Model XRat D}

/-- **C26** (FMI 3.0), partial: as for FMI 2.0. `fmi3SetTime`, which the Reference FMUs accept in Event Mode also in
Co-Simulation, is excluded among the earlier calls. -/
theorem C26_fmi3_partial (hm : RefFMU3 m) {h start : Rat} (hh : m.h = .fin h) {w w₀ w₁ : World XRat D}
    (hr : Reachable m .coSimulation w) {f₀ o₀ sd stop}
    (e₀ : step m f₀ w (.enterInitializationMode (.fin start) sd stop) = .ret (w₀, .OK, o₀))
    {f₁ : Nat} {ops : List (Op XRat)} {outs} (hops : ∀ op ∈ ops, ¬ EndsSession op ∧ op.fn ≠ .setTime)
    (e₁ : run m f₁ w₀ ops = .ret (w₁, outs)) {a d : Rat} {out : StepOut XRat} {K : Nat}
    (hK : 2 * |a + d| + 1 ≤ start + K * h) (hb : f₁ * ops.length + K < 2 ^ 64) {fuel : Nat} (hf : K < fuel) :
    step m fuel w₁ (.doStep (.fin a) (.fin d) out) ≠ .hang := by
  have hok := hm.eff.okOrError
  have h0 : 0 ≤ h := by cases hm <;> cases hh <;> decide +kernel
  obtain ⟨hn0, ht0, hs0, -⟩ := init_start hok hr e₀
  obtain ⟨n, hn, ha⟩ := Outcome.all_ret.1 (e₁ ▸ run_advanced hok (fuel := f₁) (w := w₀) ops hops)
  rw [hh] at ha
  obtain ⟨hT, hN⟩ := Ticks.of_advanced ha hn0 hs0 ht0 (by omega)
  have hn' : (0 : Rat) ≤ n * h := mul_nonneg (by exact_mod_cast Nat.zero_le n) h0
  have key : (doStepLoop m (.fin (a + d)) out fuel w₁.inst .OK false).Ends :=
    FMI3.loop_ends hm.ends hok hh h0 hT (by rw [hN]; omega) (by linarith) hf
  show (step m fuel w₁ (.doStep (.fin a) (.fin d) out)).Ends
  simp only [step, World.run, doStep, begin, beginFunction, XRat.add_fin]
  refine .bind ?_ fun _ => .ret _
  exact .ite (.ite (.ret _) (.ite (.ret _) (.ite (.ret _) (.ite .ub key)))) (.ret _)

/-- Non-vacuity: a step of Stair from 0 over 8 needs at most 90 iterations. -/
example {w₀ : World XRat Stair.Data} {c o}
    (hc : Ex.newCS3 Stair.model true true = some c)
    (e : step Stair.model 0 (.fresh c) (.enterInitializationMode (.fin 0) false (.fin 0)) = .ret (w₀, .OK, o))
    {w₁ : World XRat Stair.Data} {outs}
    (e' : run Stair.model 0 w₀ [.exitInitializationMode] = .ret (w₁, outs)) :
    step Stair.model 91 w₁ (.doStep (.fin 0) (.fin 8) Ex.stepOut) ≠ .hang :=
  C26_fmi3_partial (h := 2 / 10) .stair rfl (Ex.reachableCS3 hc) e (by simp [EndsSession, Op.fn]) e'
    (K := 90) (by decide +kernel) (by decide) (by decide)

/-- **C26** fails for a step size that is not a number and for an infinite one, although the stop time 1 was set. -/
theorem C26_violated : ∀ d ∈ [XRat.pinf, .nan], ∃ w, Ex.runCS3 Dahlquist.model false false
      [.enterInitializationMode (.fin 0) true (.fin 1), .exitInitializationMode] =
        .ret (w, [(.OK, .unit), (.OK, .unit)]) ∧
    Reachable Dahlquist.model .coSimulation w ∧
    ∀ fuel, step Dahlquist.model fuel w (.doStep (.fin 0) d Ex.stepOut) = .hang := by
  intro d hd
  obtain ⟨⟨w, outs⟩, hp, hx⟩ := Outcome.exists_of_is (r := Ex.runCS3 Dahlquist.model false false
      [.enterInitializationMode (.fin 0) true (.fin 1), .exitInitializationMode])
    (p := fun x => decide (x.2 = [(.OK, .unit), (.OK, .unit)] ∧
        x.1.inst.mv.terminateSimulation = false ∧ x.1.inst.stopTime = .fin 1 ∧
        x.1.inst.nextCommunicationPoint = .fin 0 ∧ allowed x.1.inst.ctx MASK_DoStep = true ∧
        x.1.inst.nx = 1 ∧ x.1.inst.x.length = 1 ∧ x.1.inst.dx.length = 1 ∧ x.1.inst.z.length = 0 ∧
        x.1.inst.prez.length = 0)) (by decide +kernel)
  simp only [decide_eq_true_eq] at hx
  obtain ⟨rfl, a1, a2, a3, a4, a5, a6, a7, a8, a9⟩ := hx
  refine ⟨w, hp, Ex.reach_runCS3 hp, fun fuel => ?_⟩
  have hrd : Dahlquist.ode.Ready w.inst := ⟨⟨a8, a9, a6, a7⟩, fun _ => a5, fun h => absurd h (by decide)⟩
  have := FMI3.hangs (next := Arith.add (.fin 0) d) (out := Ex.stepOut) Dahlquist.ode
    (RefFMU3.dahlquist (F := XRat)).eff.okOrError rfl (fun _ => True)
    (fun c _ => by
      rw [reached]
      refine Bool.and_eq_false_imp.2 ?_
      rcases List.mem_cons.1 hd with rfl | hd
      · cases (c.ctx.time +. Dahlquist.model.h) <;> simp [Arith.lt, XRat.lt, Arith.add, XRat.add]
      · rcases List.mem_cons.1 hd with rfl | hd
        · cases (c.ctx.time +. Dahlquist.model.h) <;> simp [Arith.lt, XRat.lt, Arith.add, XRat.add]
        · cases hd)
    (fun _ _ _ _ => trivial) hrd a1 trivial fuel
  have hc : isClose (.fin 0 : XRat) (.fin 0) = true := by decide +kernel
  have hd' : (d <=. (Arith.lit 0 : XRat)) = false :=
    (by decide +kernel : ∀ d ∈ [XRat.pinf, .nan], (d <=. (Arith.lit 0 : XRat)) = false) d hd
  have hst : ((XRat.fin 1 <. Arith.add (.fin 0) d) && !isClose (Arith.add (.fin 0) d) (.fin 1)) = false :=
    (by decide +kernel : ∀ d ∈ [XRat.pinf, .nan],
      ((XRat.fin 1 <. Arith.add (.fin 0) d) && !isClose (Arith.add (.fin 0) d) (.fin 1)) = false) d hd
  simp only [step, World.run, doStep, begin, beginFunction, a2, a3, a4, hc, hd', hst, this]
  rfl

end FMI3
end Verif
