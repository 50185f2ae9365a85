import Verif.Props.C19
import Mathlib.Algebra.Order.Field.Rat

/-!
# C51: the time of a Co-Simulation instance does not run backwards
-/

set_option linter.unusedSectionVars false

namespace Verif

/-- Exact arithmetic computes the grid points in ascending order. -/
theorem MonotoneGrid.exact {s h : Rat} (hh : 0 ≤ h) :
    MonotoneGrid (.fin s : XRat) (.fin h) := by
  have e : ∀ n : Nat, gridPoint (.fin s : XRat) (.fin h) n = .fin (s + n * h) := fun n => rfl
  have key : ∀ n : Nat, 0 ≤ (n : Rat) * h := fun n => mul_nonneg (Nat.cast_nonneg n) hh
  refine ⟨by simp, fun n => ?_, fun n k hnk => ?_⟩
  · rw [e, XRat.le_fin, decide_eq_true_eq]
    have := key n
    linarith
  · rw [e, e, XRat.le_fin, decide_eq_true_eq]
    have : (n : Rat) ≤ k := Nat.cast_le.2 hnk
    have := mul_le_mul_of_nonneg_right this hh
    linarith

theorem OnGrid.exact {s h : Rat} {t : XRat} (hh : 0 ≤ h) (g : OnGrid (.fin s) (.fin h) t) :
    ∃ a, t = .fin a ∧ s ≤ a := by
  rcases g with rfl | ⟨n, -, rfl⟩
  · exact ⟨s, rfl, le_refl _⟩
  · refine ⟨s + n * h, rfl, ?_⟩
    have := mul_nonneg (Nat.cast_nonneg n) hh
    linarith

namespace FMI2
variable {F D : Type} [Arith F] [HasInf F] {m : Model F D}

/-- **C51** (FMI 2.0): between any two points of a session the time the FMU reports does not decrease,
if the arithmetic computes the grid points in ascending order and the session has fewer than `2 ^ 64`
solver steps (`fuel` bounds the solver steps of one call). -/
theorem C51_fmi2 (hm : RefFMU2 m) {start : F} {w₀ w₁ w₂ : World F D} (hs : SessionStart m start w₀)
    (hg : MonotoneGrid start m.h) {fuel : Nat} {ops₁ ops₂ : List (Op F)} {outs₁ outs₂}
    (hops : ∀ op ∈ ops₁ ++ ops₂, ¬ EndsSession op)
    (hlen : fuel * (ops₁ ++ ops₂).length < 2 ^ 64)
    (e₁ : run m fuel w₀ ops₁ = .ret (w₁, outs₁)) (e₂ : run m fuel w₁ ops₂ = .ret (w₂, outs₂)) :
    ∃ t₁ t₂, ReadsTime m w₁ t₁ ∧ ReadsTime m w₂ t₂ ∧ OnGrid start m.h t₁ ∧
      OnGrid start m.h t₂ ∧ (t₁ <=. t₂) = true := by
  have hk := hm.eff.okOrError
  obtain ⟨hw, h1, h2, h3⟩ := hs.times hk
  obtain ⟨hw1, n, hn, a⟩ := run_advanced hk ops₁ hw (fun op h => hops op (by simp [h])) _ e₁
  obtain ⟨-, k, hk', b⟩ := run_advanced hk ops₂ hw1 (fun op h => hops op (by simp [h])) _ e₂
  refine ⟨_, _, reads_time hk hm.timeVar _, reads_time hk hm.timeVar _,
    h3 ▸ a.onGrid (h2.trans h3.symm), h3 ▸ (a.trans b).onGrid (h2.trans h3.symm), ?_⟩
  refine a.mono b h1 (h2.trans h3.symm) ?_ (h3 ▸ hg)
  rw [List.length_append, Nat.mul_add] at hlen
  omega

/-- **C51** in exact arithmetic, for every finite start time. -/
theorem C51_fmi2_exact {m : Model XRat D} (hm : RefFMU2 m) {start : Rat} {w₀ w₁ w₂ : World XRat D}
    (hs : SessionStart m (.fin start) w₀) {fuel : Nat} {ops₁ ops₂ : List (Op XRat)} {outs₁ outs₂}
    (hops : ∀ op ∈ ops₁ ++ ops₂, ¬ EndsSession op)
    (hlen : fuel * (ops₁ ++ ops₂).length < 2 ^ 64)
    (e₁ : run m fuel w₀ ops₁ = .ret (w₁, outs₁)) (e₂ : run m fuel w₁ ops₂ = .ret (w₂, outs₂)) :
    ∃ t₁ t₂, ReadsTime m w₁ (.fin t₁) ∧ ReadsTime m w₂ (.fin t₂) ∧ start ≤ t₁ ∧ t₁ ≤ t₂ := by
  have hh : ∃ h : Rat, 0 ≤ h ∧ m.h = .fin h := by
    cases hm <;> exact ⟨_, by decide +kernel, rfl⟩
  obtain ⟨h, h0, eh⟩ := hh
  obtain ⟨t₁, t₂, r₁, r₂, g₁, g₂, hle⟩ := C51_fmi2 hm hs (eh ▸ MonotoneGrid.exact h0) hops hlen e₁ e₂
  obtain ⟨a, rfl, ha⟩ := OnGrid.exact h0 (eh ▸ g₁)
  obtain ⟨b, rfl, -⟩ := OnGrid.exact h0 (eh ▸ g₂)
  exact ⟨a, b, r₁, r₂, ha, by simpa using hle⟩

/-- Non-vacuity: the time of Stair at three points of a session. -/
example : (Ex.run2 Stair.model .coSimulation [.setupExperiment (.fin 3) false (.fin 0),
    .enterInitializationMode, .exitInitializationMode, .getReal (some [0]) 1 (some [.fin 7]),
    .doStep (.fin 3) (.fin 1), .getReal (some [0]) 1 (some [.fin 7]),
    .doStep (.fin 4) (.fin 5), .getReal (some [0]) 1 (some [.fin 7])]).is
    (fun x => Ex.allOK x.2 && decide (Ex.real2 x.2 3 = some (.fin 3)) &&
      decide (Ex.real2 x.2 5 = some (.fin 4)) && decide (Ex.real2 x.2 7 = some (.fin 9))) = true := by
  decide +kernel

end FMI2

namespace FMI3
variable {F D : Type} [Arith F] [HasInf F] {m : Model F D}

/-- **C51** (FMI 3.0), partial: without `fmi3SetTime`, which the Reference FMUs also accept from
Co-Simulation instances in Event Mode, see `C51_fmi3_violated`. Between any two points of a session the time the FMU reports does not decrease,
if the arithmetic computes the grid points in ascending order and the session has fewer than `2 ^ 64`
solver steps (`fuel` bounds the solver steps of one call). -/
theorem C51_fmi3_partial (hm : RefFMU3 m) {start : F} {w₀ w₁ w₂ : World F D} (hs : SessionStart m start w₀)
    (hg : MonotoneGrid start m.h) {fuel : Nat} {ops₁ ops₂ : List (Op F)} {outs₁ outs₂}
    (hops : ∀ op ∈ ops₁ ++ ops₂, ¬ EndsSession op ∧ op.fn ≠ .setTime)
    (hlen : fuel * (ops₁ ++ ops₂).length < 2 ^ 64)
    (e₁ : run m fuel w₀ ops₁ = .ret (w₁, outs₁)) (e₂ : run m fuel w₁ ops₂ = .ret (w₂, outs₂)) :
    ∃ t₁ t₂, ReadsTime m w₁ t₁ ∧ ReadsTime m w₂ t₂ ∧ OnGrid start m.h t₁ ∧
      OnGrid start m.h t₂ ∧ (t₁ <=. t₂) = true := by
  have hk := hm.eff.okOrError
  obtain ⟨h1, h2, h3⟩ := hs.times hk
  obtain ⟨n, hn, a⟩ := run_advanced hk ops₁ (fun op h => hops op (by simp [h])) _ e₁
  obtain ⟨k, hk', b⟩ := run_advanced hk ops₂ (fun op h => hops op (by simp [h])) _ e₂
  refine ⟨_, _, reads_time hk hm.timeVar _, reads_time hk hm.timeVar _,
    h3 ▸ a.onGrid (h2.trans h3.symm), h3 ▸ (a.trans b).onGrid (h2.trans h3.symm), ?_⟩
  refine a.mono b h1 (h2.trans h3.symm) ?_ (h3 ▸ hg)
  rw [List.length_append, Nat.mul_add] at hlen
  omega

/-- **C51** (FMI 3.0) in exact arithmetic, partial in the same way, for every finite start time. -/
theorem C51_fmi3_exact_partial {m : Model XRat D} (hm : RefFMU3 m) {start : Rat} {w₀ w₁ w₂ : World XRat D}
    (hs : SessionStart m (.fin start) w₀) {fuel : Nat} {ops₁ ops₂ : List (Op XRat)} {outs₁ outs₂}
    (hops : ∀ op ∈ ops₁ ++ ops₂, ¬ EndsSession op ∧ op.fn ≠ .setTime)
    (hlen : fuel * (ops₁ ++ ops₂).length < 2 ^ 64)
    (e₁ : run m fuel w₀ ops₁ = .ret (w₁, outs₁)) (e₂ : run m fuel w₁ ops₂ = .ret (w₂, outs₂)) :
    ∃ t₁ t₂, ReadsTime m w₁ (.fin t₁) ∧ ReadsTime m w₂ (.fin t₂) ∧ start ≤ t₁ ∧ t₁ ≤ t₂ := by
  have hh : ∃ h : Rat, 0 ≤ h ∧ m.h = .fin h := by
    cases hm <;> exact ⟨_, by decide +kernel, rfl⟩
  obtain ⟨h, h0, eh⟩ := hh
  obtain ⟨t₁, t₂, r₁, r₂, g₁, g₂, hle⟩ := C51_fmi3_partial hm hs (eh ▸ MonotoneGrid.exact h0) hops hlen e₁ e₂
  obtain ⟨a, rfl, ha⟩ := OnGrid.exact h0 (eh ▸ g₁)
  obtain ⟨b, rfl, -⟩ := OnGrid.exact h0 (eh ▸ g₂)
  exact ⟨a, b, r₁, r₂, ha, by simpa using hle⟩

/-- **C51** fails for `fmi3SetTime`: all calls succeed, and the time of the Stair FMU in Co-Simulation
goes from 0 back to -5. -/
theorem C51_fmi3_violated : ∃ (w w' : World XRat Stair.Data) (outs : List (Status × Out XRat)),
    SessionStart Stair.model (.fin 0) w ∧ (∀ op ∈ setTimeOps, ¬ EndsSession op) ∧
    run Stair.model 0 w setTimeOps = .ret (w', outs) ∧ (∀ x ∈ outs, x.1 = .OK) ∧
    ReadsTime Stair.model w (.fin 0) ∧ ReadsTime Stair.model w' (.fin (-5)) := by
  obtain ⟨w, w', outs, h1, h2, h3, h4, h5, -⟩ := C19_fmi3_violated
  refine ⟨w, w', outs, h1, h2, h3, h4, ?_, h5⟩
  have hk := (RefFMU3.stair (F := XRat)).eff.okOrError
  obtain ⟨-, h6, -⟩ := h1.times hk
  have := reads_time hk RefFMU3.stair.timeVar w
  exact h6 ▸ this

/-- Non-vacuity: the time of Stair at three points of a session. -/
example : (Ex.runCS3 Stair.model false false [.enterInitializationMode (.fin 3) false (.fin 0),
    .exitInitializationMode, .get .float64 (some [0]) 1 (some [.fin 7]) 1,
    .doStep (.fin 3) (.fin 1) Ex.stepOut, .get .float64 (some [0]) 1 (some [.fin 7]) 1,
    .doStep (.fin 4) (.fin 5) Ex.stepOut, .get .float64 (some [0]) 1 (some [.fin 7]) 1]).is
    (fun x => Ex.allOK x.2 && decide (Ex.real3 x.2 2 = some (.fin 3)) &&
      decide (Ex.real3 x.2 4 = some (.fin 4)) && decide (Ex.real3 x.2 6 = some (.fin 9))) = true := by
  decide +kernel

end FMI3
end Verif
