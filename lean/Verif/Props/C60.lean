import Verif.Lemmas.Readable
import Verif.Lemmas.LensReads
import Verif.Spec.Euler
import Verif.Props.C30
import Mathlib.Tactic.Ring
import Mathlib.Tactic.Linarith
import Mathlib.Algebra.Order.Field.Rat
import Mathlib.Logic.Function.Iterate

/-!
# C60: in Co-Simulation VanDerPol and Roberts compute the explicit Euler solution
-/

set_option linter.unusedSectionVars false

namespace Verif

theorem lens_congr {F D : Type} [Arith F] {m : Model F D} {R : List (VType × Nat)} (l : Lens m R) {d d' : D} (h : l.upd d = l.upd d') (t r τ) :
    l.val t r τ d = l.val t r τ d' := by
  rw [← l.upd_val, h, l.upd_val]

/-- The data hold these states. -/
def VanDerPol.Holds (d : VanDerPol.Data XRat) (s : Oscillator) : Prop := d.x0 = .fin s.x0 ∧ d.x1 = .fin s.x1 ∧ d.mu = .fin s.mu

theorem VanDerPol.Holds.steps (n : Nat) {d : VanDerPol.Data XRat} {s : Oscillator} (h : VanDerPol.Holds d s) :
    VanDerPol.Holds ((VanDerPol.ode (F := XRat)).steps n d) (Oscillator.next^[n] s) := by
  induction n generalizing d s with
  | zero => exact h
  | succ n ih =>
    rw [Ode.steps, Function.iterate_succ_apply]
    apply ih
    obtain ⟨h1, h2, h3⟩ := h
    simp only [VanDerPol.Holds, Ode.euler, VanDerPol.ode, VanDerPol.model, eulerUpdate, h1, h2, h3, XRat.lit_eq, XRat.mul_fin, XRat.sub_fin,
      XRat.add_fin, Oscillator.next, OfNat.ofNat_ne_zero, if_false, List.getD_cons_zero, List.getD_cons_succ]
    refine ⟨trivial, ?_, trivial⟩
    congr 1
    ring

/-- The data hold these concentrations. -/
def Roberts.Holds (d : Roberts.Data XRat) (s : Reaction) : Prop :=
  d.dae = false ∧ d.y1 = .fin s.y1 ∧ d.y2 = .fin s.y2 ∧ s.y3 = 1 - s.y1 - s.y2

theorem Roberts.Holds.steps (n : Nat) {d : Roberts.Data XRat} {s : Reaction} (h : Roberts.Holds d s) :
    Roberts.Holds ((Roberts.ode (F := XRat)).steps n d) (Reaction.next^[n] s) := by
  induction n generalizing d s with
  | zero => exact h
  | succ n ih =>
    rw [Ode.steps, Function.iterate_succ_apply]
    apply ih
    obtain ⟨h0, h1, h2, h3⟩ := h
    simp only [Roberts.Holds, Ode.euler, Roberts.ode, Roberts.model, eulerUpdate, Roberts.calcData, h0, h1, h2, h3, Bool.not_false, if_true,
      Roberts.k1, Roberts.k2, Roberts.k3, XRat.lit_eq, XRat.mul_fin, XRat.sub_fin, XRat.neg_fin, XRat.add_fin, Reaction.next, OfNat.ofNat_ne_zero, if_false, List.getD_cons_zero,
      List.getD_cons_succ]
    refine ⟨trivial, trivial, ?_, trivial⟩
    congr 1
    ring

theorem Reaction.Physical.next {s : Reaction} (h : s.Physical) : s.next.Physical := by
  obtain ⟨h1, h2, h3, h4, h5⟩ := h
  have h6 : s.y1 ≤ 1 := by linarith
  have h7 : s.y3 ≤ 1 := by linarith
  have p := mul_nonneg h2 h4
  have q : 0 ≤ s.y2 ^ 2 := by nlinarith
  have e : s.y3 = 1 - s.y1 - s.y2 := by linarith
  refine ⟨?_, ?_, ?_, ?_, ?_⟩ <;> simp only [Reaction.next]
  · nlinarith
  · nlinarith [mul_nonneg h2 (sub_nonneg.2 h3), mul_nonneg h2 (sub_nonneg.2 h7)]
  · nlinarith [sq_nonneg (s.y2 - 1 / 60)]
  · nlinarith
  · ring

theorem Reaction.Physical.steps (n : Nat) {s : Reaction} (h : s.Physical) : (Reaction.next^[n] s).Physical := by
  induction n generalizing s with
  | zero => exact h
  | succ n ih => rw [Function.iterate_succ_apply]; exact ih h.next

namespace FMI2

/-- **C60**, FMI 2.0: let the importer read `time = t₀` and the oscillator `s` after a successful `fmi2ExitInitializationMode` of a Co-Simulation
instance of VanDerPol. After any calls that do not set anything and did not fail, whatever communication step sizes they used, the FMU reports
the `n`-th step of the explicit Euler method at `time = t₀ + n h`, where `h = 0.01` and `n` is the number of solver steps (less than 2⁶⁴). -/
theorem C60_vanDerPol_fmi2 {w w₁ w₂ : World XRat (VanDerPol.Data XRat)}
    (h : Reachable VanDerPol.model .coSimulation w) {f₁ o}
    (e₁ : step VanDerPol.model f₁ w .exitInitializationMode = .ret (w₁, .OK, o)) {t₀ : Rat} {s : Oscillator}
    (ht : ReadsReal VanDerPol.model w₁ 0 (.fin t₀)) (hx : ReadsOscillator w₁ s) {fuel : Nat} {ops : List (Op XRat)} {outs}
    (hops : ∀ op ∈ ops, ¬ Interferes op)
    (e₂ : run VanDerPol.model fuel w₁ ops = .ret (w₂, outs)) (hs : ∀ p ∈ outs, p.1 ≠ .Error)
    (hb : fuel * ops.length < 2 ^ 64) :
    ∃ n : Nat, ReadsReal VanDerPol.model w₂ 0 (.fin (t₀ + n * (1 / 100))) ∧ ReadsOscillator w₂ (Oscillator.next^[n] s) := by
  have hm : RefFMU2 (VanDerPol.model : Model XRat _) := .vanDerPol
  have hok := hm.eff.okOrError
  have h1 := Reachable.call hok h e₁
  obtain ⟨hz, hts⟩ := exit_start hok h e₁
  have hre := ht.readable
  have rd : ∀ {w : World XRat (VanDerPol.Data XRat)} r, (.float64, r) ∈ [(VType.float64, 0), (.float64, 1), (.float64, 2), (.float64, 3), (.float64, 4), (.float64, 5)] →
      Readable w.inst → ReadsReal VanDerPol.model w r (Lens.vanDerPol.val .float64 r w.inst.ctx.time w.inst.mv.data) :=
    fun r hr hw => reads_lens Lens.vanDerPol hr (.inl rfl) hw
  have et := ht.unique (rd 0 (by simp) hre)
  have hd0 : VanDerPol.Holds w₁.inst.mv.data s :=
    ⟨((hx.x0.unique (rd 1 (by simp) hre))).symm, ((hx.x1.unique (rd 3 (by simp) hre))).symm, ((hx.mu.unique (rd 5 (by simp) hre))).symm⟩
  obtain ⟨n, hn, hd, ha⟩ := run_steps VanDerPol.ode hm VanDerPol.reads rfl ops h1 hops e₂ hs
  have hre' := run_readable hok hre hops e₂
  have etime : w₂.inst.ctx.time = _ := ha.exact hz hts (by omega) et.symm
  have key := fun r (hr : (.float64, r) ∈ [(VType.float64, 0), (.float64, 1), (.float64, 2), (.float64, 3), (.float64, 4), (.float64, 5)]) => lens_congr Lens.vanDerPol hd .float64 r w₂.inst.ctx.time ▸ rd r hr hre'
  obtain ⟨k1, k2, k3⟩ := hd0.steps n
  refine ⟨n, ?_, ?_, ?_, ?_, ?_, ?_⟩
  · exact etime ▸ rd 0 (by simp) hre'
  · exact k1 ▸ key 1 (by simp)
  · exact k2 ▸ key 2 (by simp)
  · exact k2 ▸ key 3 (by simp)
  · have := key 4 (by simp)
    simp only [Lens.vanDerPol, k1, k2, k3, XRat.lit_eq, XRat.mul_fin, XRat.sub_fin] at this
    convert this using 2
    ring
  · exact k3 ▸ key 5 (by simp)

end FMI2

namespace FMI3

/-- **C60**, FMI 3.0: let the importer read `time = t₀` and the oscillator `s` after a successful `fmi3ExitInitializationMode` of a Co-Simulation
instance of VanDerPol. After any calls that do not set anything, all of them successful, whatever communication step sizes they used, the FMU reports
the `n`-th step of the explicit Euler method at `time = t₀ + n h`, where `h = 0.01` and `n` is the number of solver steps (less than 2⁶⁴). -/
theorem C60_vanDerPol_fmi3 {w w₁ w₂ : World XRat (VanDerPol.Data XRat)}
    (h : ReachableProper VanDerPol.model .coSimulation w) {f₁ o}
    (e₁ : step VanDerPol.model f₁ w .exitInitializationMode = .ret (w₁, .OK, o)) {t₀ : Rat} {s : Oscillator}
    (ht : Reads VanDerPol.model w₁ .float64 0 (.fin t₀)) (hx : ReadsOscillator w₁ s) {fuel : Nat} {ops : List (Op XRat)} {outs}
    (hops : ∀ op ∈ ops, ¬ Interferes op)
    (e₂ : run VanDerPol.model fuel w₁ ops = .ret (w₂, outs)) (hs : ∀ p ∈ outs, p.1 = .OK)
    (hb : fuel * ops.length < 2 ^ 64) :
    ∃ n : Nat, Reads VanDerPol.model w₂ .float64 0 (.fin (t₀ + n * (1 / 100))) ∧ ReadsOscillator w₂ (Oscillator.next^[n] s) := by
  have hm : RefFMU3 (VanDerPol.model : Model XRat _) := .vanDerPol
  have hok := hm.eff.okOrError
  have h1 := ReachableProper.call h e₁ (by simp [Op.fn])
  obtain ⟨hz, hts, hst⟩ := exit_start hok (h.reachable hok) e₁
  have hre := (h1.reachable hok).readable hok
  have rd : ∀ {w : World XRat (VanDerPol.Data XRat)} r, (.float64, r) ∈ [(VType.float64, 0), (.float64, 1), (.float64, 2), (.float64, 3), (.float64, 4), (.float64, 5)] →
      Readable w.inst → Reads VanDerPol.model w .float64 r (Lens.vanDerPol.val .float64 r w.inst.ctx.time w.inst.mv.data) :=
    fun r hr hw => reads_lens Lens.vanDerPol hr hw
  have et := ht.unique (rd 0 (by simp) hre)
  have hd0 : VanDerPol.Holds w₁.inst.mv.data s :=
    ⟨((hx.x0.unique (rd 1 (by simp) hre))).symm, ((hx.x1.unique (rd 3 (by simp) hre))).symm, ((hx.mu.unique (rd 5 (by simp) hre))).symm⟩
  obtain ⟨h2, n, hn, hd, ha⟩ := run_steps VanDerPol.ode hm VanDerPol.reads rfl ops h1 hst hops e₂ hs
  have hre' := (h2.reachable hok).readable hok
  have etime : w₂.inst.ctx.time = _ := ha.exact hz hts (by omega) et.symm
  have key := fun r (hr : (.float64, r) ∈ [(VType.float64, 0), (.float64, 1), (.float64, 2), (.float64, 3), (.float64, 4), (.float64, 5)]) => lens_congr Lens.vanDerPol hd .float64 r w₂.inst.ctx.time ▸ rd r hr hre'
  obtain ⟨k1, k2, k3⟩ := hd0.steps n
  refine ⟨n, ?_, ?_, ?_, ?_, ?_, ?_⟩
  · exact etime ▸ rd 0 (by simp) hre'
  · exact k1 ▸ key 1 (by simp)
  · exact k2 ▸ key 2 (by simp)
  · exact k2 ▸ key 3 (by simp)
  · have := key 4 (by simp)
    simp only [Lens.vanDerPol, k1, k2, k3, XRat.lit_eq, XRat.mul_fin, XRat.sub_fin] at this
    convert this using 2
    ring
  · exact k3 ▸ key 5 (by simp)


/-- **C60**, FMI 3.0: let the importer read `time = t₀` and the concentrations `s` after a successful `fmi3ExitInitializationMode` of a Co-Simulation
instance of Roberts in ODE mode. After any calls that do not set anything, all of them successful, whatever communication step sizes they
used, the FMU reports the `n`-th step of the explicit Euler method at `time = t₀ + n h`, where `h = 10⁻⁶` and `n` is the number of solver steps
(less than 2⁶⁴). -/
theorem C60_roberts_fmi3 {w w₁ w₂ : World XRat (Roberts.Data XRat)}
    (h : ReachableProper Roberts.model .coSimulation w) {f₁ o}
    (e₁ : step Roberts.model f₁ w .exitInitializationMode = .ret (w₁, .OK, o)) {t₀ : Rat} {s : Reaction}
    (ht : Reads Roberts.model w₁ .float64 0 (.fin t₀)) (hx : ReadsReaction w₁ s) {fuel : Nat} {ops : List (Op XRat)} {outs}
    (hops : ∀ op ∈ ops, ¬ Interferes op)
    (e₂ : run Roberts.model fuel w₁ ops = .ret (w₂, outs)) (hs : ∀ p ∈ outs, p.1 = .OK)
    (hb : fuel * ops.length < 2 ^ 64) :
    ∃ n : Nat, Reads Roberts.model w₂ .float64 0 (.fin (t₀ + n * (1 / 1000000))) ∧ ReadsReaction w₂ (Reaction.next^[n] s) := by
  have hm : RefFMU3 (Roberts.model : Model XRat _) := .roberts
  have hok := hm.eff.okOrError
  have h1 := ReachableProper.call h e₁ (by simp [Op.fn])
  obtain ⟨hz, hts, hst⟩ := exit_start hok (h.reachable hok) e₁
  have hre := (h1.reachable hok).readable hok
  have et := ht.unique (reads_lens Lens.roberts (by simp) hre)
  have e0 : w₁.inst.mv.data.dae = false := (hx.dae.unique (reads_lens Lens.roberts (by simp) hre)).symm
  have e1 : w₁.inst.mv.data.y1 = .fin s.y1 := (hx.y1.unique (reads_lens Lens.roberts (by simp) hre)).symm
  have e2 : w₁.inst.mv.data.y2 = .fin s.y2 := (hx.y2.unique (reads_lens Lens.roberts (by simp) hre)).symm
  have e3 : Lens.robertsY3 w₁.inst.mv.data = .fin s.y3 := (hx.y3.unique (reads_lens Lens.roberts (by simp) hre)).symm
  have hd0 : Roberts.Holds w₁.inst.mv.data s := by
    refine ⟨e0, e1, e2, ?_⟩
    simp only [Lens.robertsY3, e0, e1, e2, Bool.false_eq_true, if_false, XRat.lit_eq, XRat.sub_fin, XRat.fin.injEq] at e3
    exact e3.symm
  obtain ⟨h2, n, hn, hd, ha⟩ := run_steps Roberts.ode hm Roberts.reads rfl ops h1 hst hops e₂ hs
  have hre' := (h2.reachable hok).readable hok
  have etime : w₂.inst.ctx.time = _ := ha.exact hz hts (by omega) et.symm
  have hd' : Lens.roberts.upd w₂.inst.mv.data = Lens.roberts.upd ((Roberts.ode (F := XRat)).steps n w₁.inst.mv.data) := by
    have : ∀ d : Roberts.Data XRat, Lens.roberts.upd d = Roberts.calcData d := by
      intro d
      cases h : d.dae <;> simp [Lens.roberts, Lens.robertsY3, Roberts.calcData, h]
    rw [this, this]
    exact hd
  have key := fun t r => lens_congr Lens.roberts hd' t r w₂.inst.ctx.time
  obtain ⟨k0, k1, k2, k3⟩ := hd0.steps n
  have k4 : Lens.robertsY3 ((Roberts.ode (F := XRat)).steps n w₁.inst.mv.data) = .fin (Reaction.next^[n] s).y3 := by
    simp only [Lens.robertsY3, k0, k1, k2, k3, Bool.false_eq_true, if_false, XRat.lit_eq, XRat.sub_fin]
  refine ⟨n, etime ▸ reads_lens Lens.roberts (by simp) hre', ?_, ?_, ?_, ?_⟩
  · exact ((key .boolean 1).trans k0) ▸ reads_lens Lens.roberts (by simp) hre'
  · exact ((key .float64 2).trans k1) ▸ reads_lens Lens.roberts (by simp) hre'
  · exact ((key .float64 4).trans k2) ▸ reads_lens Lens.roberts (by simp) hre'
  · exact ((key .float64 6).trans k4) ▸ reads_lens Lens.roberts (by simp) hre'

/-- **C60**, FMI 3.0: the concentrations reported by Roberts stay physical: they are never negative, their sum stays 1, and the intermediate
product stays below 1/31. -/
theorem C60_roberts_physical {w w₁ w₂ : World XRat (Roberts.Data XRat)}
    (h : ReachableProper Roberts.model .coSimulation w) {f₁ o}
    (e₁ : step Roberts.model f₁ w .exitInitializationMode = .ret (w₁, .OK, o)) {t₀ : Rat} {s s' : Reaction}
    (ht : Reads Roberts.model w₁ .float64 0 (.fin t₀)) (hx : ReadsReaction w₁ s) (hp : s.Physical) {fuel : Nat} {ops : List (Op XRat)} {outs}
    (hops : ∀ op ∈ ops, ¬ Interferes op)
    (e₂ : run Roberts.model fuel w₁ ops = .ret (w₂, outs)) (hs : ∀ p ∈ outs, p.1 = .OK)
    (hb : fuel * ops.length < 2 ^ 64) (hx' : ReadsReaction w₂ s') : s'.Physical := by
  obtain ⟨n, -, h2⟩ := C60_roberts_fmi3 h e₁ ht hx hops e₂ hs hb
  have : s' = Reaction.next^[n] s := by
    have a := hx'.y1.unique h2.y1
    have b := hx'.y2.unique h2.y2
    have c := hx'.y3.unique h2.y3
    simp only [XRat.fin.injEq] at a b c
    cases s'
    simp only at a b c
    rw [a, b, c]
  rw [this]
  exact hp.steps n

/-- Non-vacuity: VanDerPol with `mu = 3/2` makes two solver steps in FMI 2.0. -/
example : (Ex.run2 VanDerPol.model .coSimulation [.setupExperiment (.fin 1) false (.fin 0),
    .setReal (some [5]) 1 (some [.fin (3 / 2)]), .enterInitializationMode,
    .exitInitializationMode, .doStep (.fin 1) (.fin (1 / 100)), .getReal (some [2]) 1 (some [.fin 0]),
    .doStep (.fin (101 / 100)) (.fin (1 / 100)), .getReal (some [3]) 1 (some [.fin 7]),
    .getReal (some [0]) 1 (some [.fin 7])]).is
    (fun x => Ex.allOK x.2 && decide (Ex.real2 x.2 7 = some (.fin (Oscillator.next^[2] ⟨2, 0, 3 / 2⟩).x1)) &&
      decide (Ex.real2 x.2 8 = some (.fin (102 / 100)))) = true := by
  decide +kernel

/-- Non-vacuity: Roberts makes three solver steps from its start values, which are physical. (The communication point may be
missed by up to 10⁻⁵, which is ten solver steps.) -/
example : (⟨1, 0, 0⟩ : Reaction).Physical ∧
    (Ex.runCS3 Roberts.model false false [.enterInitializationMode (.fin 0) false (.fin 0), .exitInitializationMode,
    .doStep (.fin (-8 / 1000000)) (.fin (1 / 1000000)) Ex.stepOut,
    .get .float64 (some [4]) 1 (some [.fin 7]) 1, .get .float64 (some [0]) 1 (some [.fin 7]) 1]).is
    (fun x => Ex.allOK x.2 && decide (Ex.real3 x.2 3 = some (.fin (Reaction.next^[3] ⟨1, 0, 0⟩).y2)) &&
      decide (Ex.real3 x.2 4 = some (.fin (3 / 1000000)))) = true := by
  refine ⟨by unfold Reaction.Physical; norm_num, by decide +kernel⟩

end FMI3
end Verif
