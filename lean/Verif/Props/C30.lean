import Verif.Lemmas.Readable
import Verif.Examples
import Mathlib.Tactic.Ring
import Mathlib.Tactic.Linarith
import Mathlib.Algebra.Order.Ring.Rat
import Mathlib.Algebra.Order.Ring.Abs

/-!
# C30: in Co-Simulation the Dahlquist FMU computes the explicit Euler solution
-/

set_option linter.unusedSectionVars false

namespace Verif

section views
variable {F : Type} [Arith F]

theorem Dahlquist.calc : (Dahlquist.model (F := F)).Calc Dahlquist.ode.calc' := fun _ _ => rfl
theorem Dahlquist.view_time :
    (Dahlquist.model (F := F)).View Dahlquist.ode.calc' .float64 0 fun t _ => t :=
  fun _ _ _ _ _ => rfl
theorem Dahlquist.view_x :
    (Dahlquist.model (F := F)).View Dahlquist.ode.calc' .float64 1 fun _ d => d.x :=
  fun _ _ _ _ _ => rfl
theorem Dahlquist.view_der_x :
    (Dahlquist.model (F := F)).View Dahlquist.ode.calc' .float64 2 fun _ d => d.der_x :=
  fun _ _ _ _ _ => rfl
theorem Dahlquist.view_k :
    (Dahlquist.model (F := F)).View Dahlquist.ode.calc' .float64 3 fun _ d => d.k :=
  fun _ _ _ _ _ => rfl

end views

/-- `n` solver steps of the Dahlquist FMU in exact arithmetic. -/
theorem Dahlquist.steps_eq (n : Nat) (x k : Rat) (d : XRat) :
    (Dahlquist.ode (F := XRat)).steps n ⟨.fin x, d, .fin k⟩ =
      ⟨.fin ((1 - k * (1 / 10)) ^ n * x), d, .fin k⟩ := by
  induction n generalizing x with
  | zero => simp [Ode.steps]
  | succ n ih =>
    have : (Dahlquist.ode (F := XRat)).euler ⟨.fin x, d, .fin k⟩ =
        ⟨.fin ((1 - k * (1 / 10)) * x), d, .fin k⟩ := by
      simp only [Ode.euler, Dahlquist.ode, Dahlquist.model, eulerUpdate, XRat.lit_eq, XRat.mul_fin,
        XRat.neg_fin, XRat.add_fin, List.getD_cons_zero, Nat.one_ne_zero, if_false]
      congr 2
      ring
    rw [Ode.steps, this, ih]
    congr 2
    ring

/-- The time after `n` solver steps without wrap-around of the step counter. -/
theorem Advanced.exact {h : Rat} {t t' : Times XRat} {n : Nat} (a : Advanced (.fin h) t t' n)
    (h0 : t.nSteps = 0) (ht : t.time = t.startTime) (hn : n < 2 ^ 64) {t₀ : Rat}
    (e : t.time = .fin t₀) : t'.time = .fin (t₀ + n * h) := by
  rw [a.time]
  split
  · next h' => subst h'; simp [e]
  · next h' =>
    rw [a.nSteps, if_neg h', h0, Nat.zero_add, Nat.mod_eq_of_lt hn, ← ht, e]
    simp [gridPoint]

theorem pow_bound {q : Rat} (h1 : -1 ≤ q) (h2 : q ≤ 1) (n : Nat) (x : Rat) : |q ^ n * x| ≤ |x| := by
  induction n with
  | zero => simp
  | succ n ih =>
    have : q ^ (n + 1) * x = q * (q ^ n * x) := by ring
    rw [this, abs_mul]
    have : |q| ≤ 1 := abs_le.2 ⟨h1, h2⟩
    nlinarith [abs_nonneg (q ^ n * x), abs_nonneg q]

namespace FMI2

/-- **C30**, FMI 2.0: let `t₀`, `x₀`, `k` be the values of `time`, `x`, `k` (value references 0, 1, 3)
after a successful `fmi2ExitInitializationMode` of a Co-Simulation instance. After any calls that do
not set anything and did not fail, whatever communication step sizes they used, the FMU reports
`x = (1 - k h)^n x₀` and `der(x) = -k x` at `time = t₀ + n h`, where `h = 0.1` and `n` is the number of
solver steps (assumed to be less than 2^64). -/
theorem C30_fmi2 {w w₁ w₂ : World XRat (Dahlquist.Data XRat)}
    (h : Reachable Dahlquist.model .coSimulation w) {f₁ o}
    (e₁ : step Dahlquist.model f₁ w .exitInitializationMode = .ret (w₁, .OK, o)) {t₀ x₀ k : Rat}
    (ht : ReadsReal Dahlquist.model w₁ 0 (.fin t₀)) (hx : ReadsReal Dahlquist.model w₁ 1 (.fin x₀))
    (hk : ReadsReal Dahlquist.model w₁ 3 (.fin k)) {fuel : Nat} {ops : List (Op XRat)} {outs}
    (hops : ∀ op ∈ ops, ¬ Interferes op)
    (e₂ : run Dahlquist.model fuel w₁ ops = .ret (w₂, outs)) (hs : ∀ p ∈ outs, p.1 ≠ .Error)
    (hb : fuel * ops.length < 2 ^ 64) :
    ∃ n : Nat,
      ReadsReal Dahlquist.model w₂ 0 (.fin (t₀ + n * (1 / 10))) ∧
      ReadsReal Dahlquist.model w₂ 1 (.fin ((1 - k * (1 / 10)) ^ n * x₀)) ∧
      ReadsReal Dahlquist.model w₂ 2 (.fin (-k * ((1 - k * (1 / 10)) ^ n * x₀))) ∧
      ReadsReal Dahlquist.model w₂ 3 (.fin k) := by
  have hm : RefFMU2 (Dahlquist.model : Model XRat _) := .dahlquist
  have hok := hm.eff.okOrError
  have hcc := (Dahlquist.ode (F := XRat)).calc_calc
  have h1 := Reachable.call hok h e₁
  obtain ⟨hz, hts⟩ := exit_start hok h e₁
  have hre := hx.readable
  have ex := hx.unique (view_real Dahlquist.calc hcc Dahlquist.view_x hre)
  have ek := hk.unique (view_real Dahlquist.calc hcc Dahlquist.view_k hre)
  have et := ht.unique (view_real Dahlquist.calc hcc Dahlquist.view_time hre)
  obtain ⟨n, hn, hd, ha⟩ := run_steps Dahlquist.ode hm Dahlquist.reads rfl ops h1 hops e₂ hs
  have hre' := run_readable hok hre hops e₂
  have etime := ha.exact hz hts (by omega) et.symm
  have hdat : w₁.inst.mv.data = ⟨.fin x₀, w₁.inst.mv.data.der_x, .fin k⟩ := by
    rw [ex, ek]; rfl
  rw [hdat, Dahlquist.steps_eq] at hd
  have v0 := view_real Dahlquist.calc hcc Dahlquist.view_time hre'
  have v1 := view_real Dahlquist.calc hcc Dahlquist.view_x hre'
  have v2 := view_real Dahlquist.calc hcc Dahlquist.view_der_x hre'
  have v3 := view_real Dahlquist.calc hcc Dahlquist.view_k hre'
  rw [hd] at v1 v2 v3
  have etime : w₂.inst.ctx.time = _ := etime
  rw [etime] at v0
  exact ⟨n, v0, v1, v2, v3⟩

/-- **C30**, FMI 2.0: for `0 ≤ k ≤ 20` the magnitude of `x` does not grow during any calls that do not
set anything and did not fail. -/
theorem C30_fmi2_bounded {w₁ w₂ : World XRat (Dahlquist.Data XRat)}
    (h : Reachable Dahlquist.model .coSimulation w₁) {x₁ x₂ k : Rat}
    (hx : ReadsReal Dahlquist.model w₁ 1 (.fin x₁)) (hk : ReadsReal Dahlquist.model w₁ 3 (.fin k))
    (h0 : 0 ≤ k) (h20 : k ≤ 20) {fuel : Nat} {ops : List (Op XRat)} {outs}
    (hops : ∀ op ∈ ops, ¬ Interferes op)
    (e₂ : run Dahlquist.model fuel w₁ ops = .ret (w₂, outs)) (hs : ∀ p ∈ outs, p.1 ≠ .Error)
    (hx₂ : ReadsReal Dahlquist.model w₂ 1 (.fin x₂)) : |x₂| ≤ |x₁| := by
  have hm : RefFMU2 (Dahlquist.model : Model XRat _) := .dahlquist
  have hcc := (Dahlquist.ode (F := XRat)).calc_calc
  have hre := hx.readable
  have ex := hx.unique (view_real Dahlquist.calc hcc Dahlquist.view_x hre)
  have ek := hk.unique (view_real Dahlquist.calc hcc Dahlquist.view_k hre)
  have ex2 := hx₂.unique (view_real Dahlquist.calc hcc Dahlquist.view_x hx₂.readable)
  obtain ⟨n, -, hd, -⟩ := run_steps Dahlquist.ode hm Dahlquist.reads rfl ops h hops e₂ hs
  have hdat : w₁.inst.mv.data = ⟨.fin x₁, w₁.inst.mv.data.der_x, .fin k⟩ := by
    rw [ex, ek]; rfl
  rw [hdat, Dahlquist.steps_eq] at hd
  rw [hd] at ex2
  cases ex2
  exact pow_bound (by linarith) (by linarith) n x₁

/-- Non-vacuity: with `x₀ = 3`, `k = 2` steps over 0.3 and 0.2 make five solver steps. -/
example : (Ex.run2 Dahlquist.model .coSimulation [.setupExperiment (.fin 1) false (.fin 0),
    .setReal (some [1, 3]) 2 (some [.fin 3, .fin 2]), .enterInitializationMode,
    .exitInitializationMode, .doStep (.fin 1) (.fin (3 / 10)), .getReal (some [2]) 1 (some [.fin 0]),
    .doStep (.fin (13 / 10)) (.fin (2 / 10)), .getReal (some [1]) 1 (some [.fin 7]),
    .getReal (some [0]) 1 (some [.fin 7])]).is
    (fun x => Ex.allOK x.2 && decide (Ex.real2 x.2 7 = some (.fin ((8 / 10) ^ 5 * 3))) &&
      decide (Ex.real2 x.2 8 = some (.fin (3 / 2)))) = true := by
  decide +kernel

end FMI2

namespace FMI3

/-- **C30**, FMI 3.0: the same for FMI 3.0, with and without Event Mode and early return, for
instances that did not call `fmi3EnterStepMode` in Initialization Mode. -/
theorem C30_fmi3 {w w₁ w₂ : World XRat (Dahlquist.Data XRat)}
    (h : ReachableProper Dahlquist.model .coSimulation w) {f₁ o}
    (e₁ : step Dahlquist.model f₁ w .exitInitializationMode = .ret (w₁, .OK, o)) {t₀ x₀ k : Rat}
    (ht : Reads Dahlquist.model w₁ .float64 0 (.fin t₀))
    (hx : Reads Dahlquist.model w₁ .float64 1 (.fin x₀))
    (hk : Reads Dahlquist.model w₁ .float64 3 (.fin k)) {fuel : Nat} {ops : List (Op XRat)} {outs}
    (hops : ∀ op ∈ ops, ¬ Interferes op)
    (e₂ : run Dahlquist.model fuel w₁ ops = .ret (w₂, outs)) (hs : ∀ p ∈ outs, p.1 = .OK)
    (hb : fuel * ops.length < 2 ^ 64) :
    ∃ n : Nat,
      Reads Dahlquist.model w₂ .float64 0 (.fin (t₀ + n * (1 / 10))) ∧
      Reads Dahlquist.model w₂ .float64 1 (.fin ((1 - k * (1 / 10)) ^ n * x₀)) ∧
      Reads Dahlquist.model w₂ .float64 2 (.fin (-k * ((1 - k * (1 / 10)) ^ n * x₀))) ∧
      Reads Dahlquist.model w₂ .float64 3 (.fin k) := by
  have hm : RefFMU3 (Dahlquist.model : Model XRat _) := .dahlquist
  have hok := hm.eff.okOrError
  have hcc := (Dahlquist.ode (F := XRat)).calc_calc
  have h1 := ReachableProper.call h e₁ (by simp [Op.fn])
  obtain ⟨hz, hts, hst⟩ := exit_start hok (h.reachable hok) e₁
  have hre := (h1.reachable hok).readable hok
  have ex := hx.unique (view Dahlquist.calc hcc Dahlquist.view_x hre)
  have ek := hk.unique (view Dahlquist.calc hcc Dahlquist.view_k hre)
  have et := ht.unique (view Dahlquist.calc hcc Dahlquist.view_time hre)
  obtain ⟨h2, n, hn, hd, ha⟩ := run_steps Dahlquist.ode hm Dahlquist.reads rfl ops h1 hst hops e₂ hs
  have hre' := (h2.reachable hok).readable hok
  have etime := ha.exact hz hts (by omega) et.symm
  have hdat : w₁.inst.mv.data = ⟨.fin x₀, w₁.inst.mv.data.der_x, .fin k⟩ := by
    rw [ex, ek]; rfl
  rw [hdat, Dahlquist.steps_eq] at hd
  have v0 := view Dahlquist.calc hcc Dahlquist.view_time hre'
  have v1 := view Dahlquist.calc hcc Dahlquist.view_x hre'
  have v2 := view Dahlquist.calc hcc Dahlquist.view_der_x hre'
  have v3 := view Dahlquist.calc hcc Dahlquist.view_k hre'
  rw [hd] at v1 v2 v3
  have etime : w₂.inst.ctx.time = _ := etime
  rw [etime] at v0
  exact ⟨n, v0, v1, v2, v3⟩

/-- Non-vacuity: Event Mode at the end of the initialisation, then six solver steps. -/
example : (Ex.runCS3 Dahlquist.model false true [.set .float64 (some [1, 3]) 2 (some [.fin 3, .fin 2]) 2,
    .enterInitializationMode (.fin 1) false (.fin 0), .exitInitializationMode,
    .doStep (.fin 1) (.fin (4 / 10)) Ex.stepOut, .enterEventMode, .enterStepMode,
    .doStep (.fin (14 / 10)) (.fin (2 / 10)) Ex.stepOut,
    .get .float64 (some [1]) 1 (some [.fin 7]) 1, .get .float64 (some [0]) 1 (some [.fin 7]) 1]).is
    (fun x => Ex.allOK x.2 && decide (Ex.real3 x.2 7 = some (.fin ((8 / 10) ^ 6 * 3))) &&
      decide (Ex.real3 x.2 8 = some (.fin (8 / 5)))) = true := by
  decide +kernel

end FMI3
end Verif
