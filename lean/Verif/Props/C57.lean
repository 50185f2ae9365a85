import Verif.Lemmas.BallRun
import Verif.Props.C30
import Verif.Lemmas.ExReach

/-!
# C57: BouncingBall computes the explicit Euler trajectory with bounces, in FMI 2.0, in FMI 3.0, and in FMI 3.0 with
Event Mode; the ball never reaches the ground

Exact arithmetic.
-/

set_option linter.unusedSectionVars false

namespace Verif
open BouncingBall

namespace BouncingBall
variable {F : Type} [Arith F]

theorem view_time : (BouncingBall.model (F := F)).View BouncingBall.ode.calc' .float64 0 fun t _ => t :=
  fun _ _ _ _ _ => rfl

end BouncingBall

/-- A ball above the ground that is not accelerated upwards stays above the ground. -/
theorem Ball.next_above {b : Ball} (h : 0 < b.h) (g : b.g ≤ 0) : 0 < b.next.h ∧ b.next.g ≤ 0 := by
  have hpos : (0 : Rat) < 1 / 2 ^ 1022 := div_pos one_pos (pow_pos two_pos _)
  unfold Ball.next Ball.bounce
  rw [if_pos h]
  split
  · split
    · exact ⟨hpos, le_refl _⟩
    · exact ⟨hpos, g⟩
  · next hh =>
    refine ⟨not_le.1 fun h1 => hh ⟨h1, ?_⟩, g⟩
    simp only [Ball.fall] at h1 ⊢
    linarith

theorem Ball.iterate_above (n : Nat) {b : Ball} (h : 0 < b.h) (g : b.g ≤ 0) :
    0 < (Ball.next^[n] b).h ∧ (Ball.next^[n] b).g ≤ 0 := by
  induction n generalizing b with
  | zero => exact ⟨h, g⟩
  | succ n ih => exact ih (next_above h g).1 (next_above h g).2

namespace FMI2

theorem exit_started {F D : Type} [Arith F] [HasInf F] {m : Model F D} (hm : OkOrError m) {w w' : World F D}
    (h : Reachable m .coSimulation w) {fuel : Nat} {o}
    (e : step m fuel w .exitInitializationMode = .ret (w', .OK, o)) : Started w'.inst := by
  have hmo := step_mode' hm _ e
  simp only [reduceCtorEq, false_and, true_or, true_and, false_or] at hmo
  have := (Reachable.mode_cs hm (by decide) h).1
  left
  simp [hmo.2.2, Spec.modeAfter, Spec.nextMode, Op.fn, this]

theorem exit_on {w w₁ : World XRat (BouncingBall.Data XRat)} (h : Reachable BouncingBall.model .coSimulation w) {f₁ o}
    (e₁ : step BouncingBall.model f₁ w .exitInitializationMode = .ret (w₁, .OK, o)) {b : Ball} (hb : ReadsBall w₁ b) :
    On b w₁.inst := by
  have hm : RefFMU2 (BouncingBall.model : Model XRat _) := .bouncingBall
  have hok := hm.eff.okOrError
  obtain ⟨q, hq, hqs⟩ := indicator_of b
  refine ⟨hb.data, (Reachable.mv hok netd_inv rfl (Reachable.call hok h e₁)).inst, .inl ⟨q, ?_, hqs⟩⟩
  rw [exit_prez BouncingBall.ode hok (h.ready BouncingBall.ode hm).1 (by decide) e₁, hb.data]
  exact congrArg (fun x => [x]) hq

/-- **C57**, FMI 2.0: let the importer read `time = t₀` and the ball `b` after a successful
`fmi2ExitInitializationMode` of a Co-Simulation instance. After any calls that do not set anything and did not fail,
whatever communication step sizes they used, the FMU reports at `time = t₀ + n/1000` the ball of the `n`-th step of the
explicit Euler method with bounces (`n` is less than `2^64`). -/
theorem C57_fmi2 {w w₁ w₂ : World XRat (BouncingBall.Data XRat)}
    (h : Reachable BouncingBall.model .coSimulation w) {f₁ o}
    (e₁ : step BouncingBall.model f₁ w .exitInitializationMode = .ret (w₁, .OK, o)) {t₀ : Rat} {b : Ball}
    (ht : ReadsReal BouncingBall.model w₁ 0 (.fin t₀)) (hb : ReadsBall w₁ b) {fuel : Nat} {ops : List (Op XRat)} {outs}
    (hops : ∀ op ∈ ops, ¬ Interferes op)
    (e₂ : run BouncingBall.model fuel w₁ ops = .ret (w₂, outs)) (hs : ∀ p ∈ outs, p.1 ≠ .Error)
    (hn : fuel * ops.length < 2 ^ 64) :
    ∃ n : Nat, ReadsReal BouncingBall.model w₂ 0 (.fin (t₀ + n / 1000)) ∧ ReadsBall w₂ (Ball.next^[n] b) := by
  have hm : RefFMU2 (BouncingBall.model : Model XRat _) := .bouncingBall
  have hok := hm.eff.okOrError
  have hcc := (BouncingBall.ode (F := XRat)).calc_calc
  have hre := hb.h.readable
  obtain ⟨n, hl, hd, ha⟩ := run_follows BouncingBall.follows hm BouncingBall.reads ops (Reachable.call hok h e₁)
    (exit_started hok h e₁) hops (exit_on h e₁ hb) e₂ hs
  have hre' := run_readable hok hre hops e₂
  obtain ⟨hz, hts⟩ := exit_start hok h e₁
  have et := ht.unique (view_real BouncingBall.calc_ok hcc BouncingBall.view_time hre)
  have etime : w₂.inst.ctx.time = _ := Advanced.exact (h := 1 / 1000) ha hz hts (by omega) et.symm
  refine ⟨n, ?_, .of_data hd.data hre'⟩
  have v0 := view_real BouncingBall.calc_ok hcc BouncingBall.view_time hre'
  rw [etime] at v0
  simpa [div_eq_mul_inv] using v0

/-- **C57**, FMI 2.0: a ball that starts above the ground and is not accelerated upwards is above the ground
whenever the importer looks. -/
theorem C57_above_fmi2 {w w₁ w₂ : World XRat (BouncingBall.Data XRat)}
    (h : Reachable BouncingBall.model .coSimulation w) {f₁ o}
    (e₁ : step BouncingBall.model f₁ w .exitInitializationMode = .ret (w₁, .OK, o)) {b : Ball}
    (hb : ReadsBall w₁ b) (h0 : 0 < b.h) (hg : b.g ≤ 0) {fuel : Nat} {ops : List (Op XRat)} {outs}
    (hops : ∀ op ∈ ops, ¬ Interferes op)
    (e₂ : run BouncingBall.model fuel w₁ ops = .ret (w₂, outs)) (hs : ∀ p ∈ outs, p.1 ≠ .Error) :
    ∃ b', ReadsBall w₂ b' ∧ 0 < b'.h := by
  have hm : RefFMU2 (BouncingBall.model : Model XRat _) := .bouncingBall
  have hok := hm.eff.okOrError
  obtain ⟨n, hl, hd, ha⟩ := run_follows BouncingBall.follows hm BouncingBall.reads ops (Reachable.call hok h e₁)
    (exit_started hok h e₁) hops (exit_on h e₁ hb) e₂ hs
  exact ⟨_, .of_data hd.data (run_readable hok hb.h.readable hops e₂), (Ball.iterate_above n h0 hg).1⟩

/-- Non-vacuity: a ball that bounces in the 5th step. -/
example : (Ex.run2 BouncingBall.model .coSimulation [.setupExperiment (.fin 0) false (.fin 0),
    .setReal (some [1, 3]) 2 (some [.fin (1 / 100), .fin (-2)]), .enterInitializationMode, .exitInitializationMode,
    .doStep (.fin 0) (.fin (7 / 1000)), .getReal (some [0]) 1 (some [.fin 9]),
    .getReal (some [1]) 1 (some [.fin 9]), .getReal (some [3]) 1 (some [.fin 9])]).is
    (fun x => Ex.allOK x.2 && decide (Ex.real2 x.2 5 = some (.fin (7 / 1000))) &&
      decide (Ex.real2 x.2 6 = some (.fin (Ball.next^[7] ⟨1 / 100, -2, -981 / 100, 7 / 10⟩).h)) &&
      decide (Ex.real2 x.2 7 = some (.fin (Ball.next^[7] ⟨1 / 100, -2, -981 / 100, 7 / 10⟩).v)) &&
      decide (0 < (Ball.next^[7] ⟨1 / 100, -2, -981 / 100, 7 / 10⟩).v)) = true := by
  decide +kernel

end FMI2

namespace FMI3

theorem exit_on {w w₁ : World XRat (BouncingBall.Data XRat)} {t : IType} (h : ReachableProper BouncingBall.model t w) {f₁ o}
    (e₁ : step BouncingBall.model f₁ w .exitInitializationMode = .ret (w₁, .OK, o)) {b : Ball} (hb : ReadsBall w₁ b) :
    On b w₁.inst := by
  have hm : RefFMU3 (BouncingBall.model : Model XRat _) := .bouncingBall
  have hok := hm.eff.okOrError
  obtain ⟨q, hq, hqs⟩ := indicator_of b
  have h1 := (ReachableProper.call h e₁ (by intro h; cases h)).reachable hok
  refine ⟨hb.data, (Reachable.mv hok netd_inv rfl h1).inst, .inl ⟨q, ?_, hqs⟩⟩
  rw [exit_prez BouncingBall.ode hok (h.ready BouncingBall.ode hm).1 (by decide) e₁, hb.data]
  exact congrArg (fun x => [x]) hq

/-- **C57**, FMI 3.0: let the importer read `time = t₀` and the ball `b` after a successful
`fmi3ExitInitializationMode`. After any calls that set nothing and succeeded, by an importer that calls
`fmi3UpdateDiscreteStates` for every event that `fmi3DoStep` reports (`p` says whether it also does so after the
initialisation, `p'` whether an event is to be handled at the end), whatever communication step sizes it used and
whether or not it uses Event Mode and early return, the FMU reports at `time = t₀ + n/1000` the ball of the `n`-th step of
the explicit Euler method with bounces, or, if an event is to be handled, a ball that the event will turn into it. -/
theorem C57_fmi3 {t : IType} {w w₁ w₂ : World XRat (BouncingBall.Data XRat)}
    (h : ReachableProper BouncingBall.model t w) {f₁ o}
    (e₁ : step BouncingBall.model f₁ w .exitInitializationMode = .ret (w₁, .OK, o)) {t₀ : Rat} {b : Ball}
    (ht : Reads BouncingBall.model w₁ .float64 0 (.fin t₀)) (hb : ReadsBall w₁ b) {fuel : Nat} {ops : List (Op XRat)} {outs}
    (hops : ∀ op ∈ ops, ¬ Interferes op)
    (e₂ : run BouncingBall.model fuel w₁ ops = .ret (w₂, outs)) (hs : ∀ p ∈ outs, p.1 = .OK)
    {p p' : Bool} (hh : Handled p ops outs p') (hn : fuel * ops.length < 2 ^ 64) :
    ∃ n : Nat, Reads BouncingBall.model w₂ .float64 0 (.fin (t₀ + n / 1000)) ∧
      ∃ a, ReadsBall w₂ a ∧ (if p' then a.bounce else a) = Ball.next^[n] (if p then b.bounce else b) := by
  have hm : RefFMU3 (BouncingBall.model : Model XRat _) := .bouncingBall
  have hok := hm.eff.okOrError
  have hcc := (BouncingBall.ode (F := XRat)).calc_calc
  have hre := FMI3.Reads.readable hb.h
  obtain ⟨hz, hts, hst⟩ := exit_start hok (h.reachable hok) e₁
  have h0 : Pending BouncingBall.model On (fun s c => ∃ b, On b c ∧ b.bounce = s) p (if p then b.bounce else b) w₁.inst := by
    have := exit_on h e₁ hb
    cases p
    · exact this
    · exact ⟨rfl, b, this, rfl⟩
  obtain ⟨hr, n, hl, hd, ha⟩ := run_follows BouncingBall.follows hm BouncingBall.reads ops
    (ReachableProper.call h e₁ (by intro h; cases h)) hst hops h0 e₂ hs hh
  have hre' := (hr.reachable hok).readable hok
  have et := ht.unique (view BouncingBall.calc_ok hcc BouncingBall.view_time hre)
  have etime : w₂.inst.ctx.time = _ := Advanced.exact (h := 1 / 1000) ha hz hts (by omega) et.symm
  refine ⟨n, ?_, ?_⟩
  · have v0 := view BouncingBall.calc_ok hcc BouncingBall.view_time hre'
    rw [etime] at v0
    simpa [div_eq_mul_inv] using v0
  · cases p'
    · exact ⟨_, .of_data (show On _ _ from hd).data hre', rfl⟩
    · obtain ⟨-, a, ha, h⟩ := hd
      exact ⟨a, .of_data ha.data hre', h⟩

/-- **C57**, FMI 3.0: a ball that starts above the ground and is not accelerated upwards is above the ground
whenever the importer looks and has no event to handle. -/
theorem C57_above_fmi3 {t : IType} {w w₁ w₂ : World XRat (BouncingBall.Data XRat)}
    (h : ReachableProper BouncingBall.model t w) {f₁ o}
    (e₁ : step BouncingBall.model f₁ w .exitInitializationMode = .ret (w₁, .OK, o)) {b : Ball}
    (hb : ReadsBall w₁ b) (hpos : 0 < b.h) (hg : b.g ≤ 0) {fuel : Nat} {ops : List (Op XRat)} {outs}
    (hops : ∀ op ∈ ops, ¬ Interferes op)
    (e₂ : run BouncingBall.model fuel w₁ ops = .ret (w₂, outs)) (hs : ∀ p ∈ outs, p.1 = .OK)
    {p : Bool} (hh : Handled p ops outs false) :
    ∃ b', ReadsBall w₂ b' ∧ 0 < b'.h := by
  have hm : RefFMU3 (BouncingBall.model : Model XRat _) := .bouncingBall
  have hok := hm.eff.okOrError
  obtain ⟨-, -, hst⟩ := exit_start hok (h.reachable hok) e₁
  have h0 : Pending BouncingBall.model On (fun s c => ∃ b, On b c ∧ b.bounce = s) p b w₁.inst := by
    have := exit_on h e₁ hb
    cases p
    · exact this
    · exact ⟨rfl, b, this, bounce_above hpos⟩
  obtain ⟨hr, n, hl, hd, ha⟩ := run_follows BouncingBall.follows hm BouncingBall.reads ops
    (ReachableProper.call h e₁ (by intro h; cases h)) hst hops h0 e₂ hs hh
  exact ⟨_, .of_data (show On _ _ from hd).data ((hr.reachable hok).readable hok), (Ball.iterate_above n hpos hg).1⟩

/-- Non-vacuity: with Event Mode and early return, a ball that bounces in the 5th step; the first `fmi3DoStep` reports
the event (and returns early), the importer handles it and goes on. -/
example : (Ex.runCS3 BouncingBall.model true true [.set .float64 (some [1, 3]) 2 (some [.fin (1 / 100), .fin (-2)]) 2,
    .enterInitializationMode (.fin 0) false (.fin 0), .exitInitializationMode,
    .updateDiscreteStates ⟨some false, some false, some false, some false, some false, some (.fin 0)⟩,
    .enterStepMode, .doStep (.fin 0) (.fin (7 / 1000)) Ex.stepOut, .enterEventMode,
    .updateDiscreteStates ⟨some false, some false, some false, some false, some false, some (.fin 0)⟩,
    .enterStepMode, .doStep (.fin (5 / 1000)) (.fin (2 / 1000)) Ex.stepOut]).is
    (fun x => Ex.allOK x.2 && decide ((x.2.map (·.2.needsEvent)) =
      [false, false, false, false, false, true, false, false, false, true])) = true := by
  decide +kernel

end FMI3
end Verif
