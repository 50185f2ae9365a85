import Verif.Props.C34

/-!
# C33: the directional derivatives of VanDerPol are the true derivatives

`w` is the instance whose derivatives are asked for. `ws s` are instances whose states (and parameter) differ
from those of `w` by `s` times the seed; `g s` is what they report for an unknown. The value the function
returns for that unknown is the derivative of `g` at zero.
-/

namespace Verif

/-- The derivative of the right-hand side of VanDerPol. -/
theorem vdp_derivative {init : Bool} {a b mu : Rat} {ks : List Nat} {seed : List Rat} (hl : seed.length = ks.length)
    (hks : ∀ k ∈ ks, k = 1 ∨ k = 3 ∨ k = 5 ∧ init = true) {u : Nat} (hu : u = 2 ∨ u = 4) {g : Rat → Rat}
    (h2 : u = 2 → ∀ s, g s = b + s * seedOf 3 ks seed)
    (h4 : u = 4 → ∀ s, g s = (mu + s * seedOf 5 ks seed) *
      ((1 - (a + s * seedOf 1 ks seed) * (a + s * seedOf 1 ks seed)) * (b + s * seedOf 3 ks seed)) - (a + s * seedOf 1 ks seed)) :
    IsDerivative g (dot (ks.map (vdpJ init a b mu u)) seed) := by
  rw [dot_seedOf (vdpJ init a b mu u) (R := if init then [1, 3, 5] else [1, 3]) (by split <;> decide) ks seed
    (fun k hk hn => by
      exfalso
      rcases hks k hk with rfl | rfl | ⟨rfl, h⟩ <;> revert hn
      · cases init <;> simp
      · cases init <;> simp
      · simp [h]) hl]
  have h5 : init = false → seedOf 5 ks seed = 0 := by
    rintro rfl
    clear h2 h4
    induction ks generalizing seed with
    | nil => cases seed <;> rfl
    | cons k ks ih =>
      match seed, hl with
      | s :: seed, hl =>
        rw [seedOf, ih (by simpa using hl) fun k hk => hks k (by simp [hk]), if_neg, zero_add]
        rcases hks k (by simp) with rfl | rfl | ⟨-, h⟩ <;> simp at *
  rcases hu with rfl | rfl
  · have hg := h2 rfl
    refine IsDerivative.poly 0 0 0 fun s => ?_
    rw [hg s, hg 0]
    cases init <;> simp [vdpJ] <;> ring
  · have hg := h4 rfl
    refine IsDerivative.poly (seedOf 5 ks seed * ((1 - a * a) * seedOf 3 ks seed - 2 * a * seedOf 1 ks seed * b) -
        mu * (2 * a * seedOf 1 ks seed * seedOf 3 ks seed + seedOf 1 ks seed * seedOf 1 ks seed * b))
      (-seedOf 5 ks seed * (seedOf 1 ks seed * seedOf 1 ks seed * b + 2 * a * seedOf 1 ks seed * seedOf 3 ks seed) -
        mu * seedOf 1 ks seed * seedOf 1 ks seed * seedOf 3 ks seed)
      (-seedOf 5 ks seed * seedOf 1 ks seed * seedOf 1 ks seed * seedOf 3 ks seed) fun s => ?_
    rw [hg s, hg 0]
    cases init with
    | true => simp [vdpJ]; ring
    | false => rw [h5 rfl]; simp [vdpJ]; ring

namespace FMI2

/-- **C33**, FMI 2.0. In Initialization Mode the parameter `mu` may be among the knowns as well. -/
theorem C33_fmi2 {w : World XRat (VanDerPol.Data XRat)} {a b mu : Rat} (h1 : Reads VanDerPol.model w .float64 1 (.fin a))
    (h3 : Reads VanDerPol.model w .float64 3 (.fin b)) (h5 : Reads VanDerPol.model w .float64 5 (.fin mu))
    (us ks : List Nat) (hus : ∀ u ∈ us, u = 2 ∨ u = 4)
    (hks : ∀ k ∈ ks, k = 1 ∨ k = 3 ∨ k = 5 ∧ w.inst.ctx.state = .initializationMode)
    (seed : List Rat) (hl : seed.length = ks.length) :
    ∃ out : List Rat, out.length = us.length ∧ Directional VanDerPol.model w us ks (seed.map .fin) (out.map .fin) ∧
      ∀ x ∈ us.zip out, ∀ (ws : Rat → World XRat (VanDerPol.Data XRat)) (g : Rat → Rat),
        (∀ s, Reads VanDerPol.model (ws s) .float64 1 (.fin (a + s * seedOf 1 ks seed)) ∧
          Reads VanDerPol.model (ws s) .float64 3 (.fin (b + s * seedOf 3 ks seed)) ∧
          Reads VanDerPol.model (ws s) .float64 5 (.fin (mu + s * seedOf 5 ks seed)) ∧
          Reads VanDerPol.model (ws s) .float64 x.1 (.fin (g s))) →
        IsDerivative g x.2 := by
  have hs := h1.allowed
  have e1 : w.inst.mv.data.x0 = .fin a := (reads_lens Lens.vanDerPol (by simp) (.inl rfl) hs).unique h1
  have e3 : w.inst.mv.data.x1 = .fin b := (reads_lens Lens.vanDerPol (by simp) (.inl rfl) hs).unique h3
  have e5 : w.inst.mv.data.mu = .fin mu := (reads_lens Lens.vanDerPol (by simp) (.inl rfl) hs).unique h5
  refine ⟨us.map fun u => dot (ks.map (vdpJ (w.inst.ctx.state = .initializationMode) a b mu u)) seed, by simp, ?_, ?_⟩
  · simpa [List.map_map, Function.comp_def] using directional vanDerPol_partial (vdp_fin e1 e3 e5) hs us ks seed hl
  · intro x hx ws g hw
    obtain ⟨hx1, hx2⟩ := mem_zip_map hx
    rw [hx2]
    refine vdp_derivative hl (by simpa using hks) (hus _ hx1) (fun hu s => ?_) (fun hu s => ?_)
    · obtain ⟨-, r3, -, r⟩ := hw s
      rw [hu] at r
      have := r.unique (reads_lens Lens.vanDerPol (by simp) (.inl rfl) r.allowed)
      have e3 := r3.unique (reads_lens Lens.vanDerPol (by simp) (.inl rfl) r.allowed)
      exact XRat.fin.inj (this.trans e3.symm)
    · obtain ⟨r1, r3, r5, r⟩ := hw s
      rw [hu] at r
      have e := r.unique (reads_lens Lens.vanDerPol (by simp) (.inl rfl) r.allowed)
      have e1 := r1.unique (reads_lens Lens.vanDerPol (by simp) (.inl rfl) r.allowed)
      have e3 := r3.unique (reads_lens Lens.vanDerPol (by simp) (.inl rfl) r.allowed)
      have e5 := r5.unique (reads_lens Lens.vanDerPol (by simp) (.inl rfl) r.allowed)
      refine XRat.fin.inj (e.trans ?_)
      show (ws s).inst.mv.data.mu *. ((Arith.lit 1 -. (ws s).inst.mv.data.x0 *. (ws s).inst.mv.data.x0) *. (ws s).inst.mv.data.x1) -.
        (ws s).inst.mv.data.x0 = _
      rw [show (ws s).inst.mv.data.x0 = _ from e1.symm, show (ws s).inst.mv.data.x1 = _ from e3.symm,
        show (ws s).inst.mv.data.mu = _ from e5.symm]
      rfl

/-- Instances as the theorem speaks of exist for every direction. -/
example (w : World XRat (VanDerPol.Data XRat)) (hs : w.inst.ctx.state ∈ Spec.allowedIn .getReal) (a b mu p q : Rat) :
    ∃ (ws : Rat → World XRat (VanDerPol.Data XRat)) (g : Rat → Rat), ∀ s,
      Reads VanDerPol.model (ws s) .float64 1 (.fin (a + s * p)) ∧ Reads VanDerPol.model (ws s) .float64 3 (.fin (b + s * q)) ∧
      Reads VanDerPol.model (ws s) .float64 5 (.fin mu) ∧ Reads VanDerPol.model (ws s) .float64 4 (.fin (g s)) :=
  ⟨fun s => { w with inst := { w.inst with mv := { w.inst.mv with data := ⟨.fin (a + s * p), .fin 0, .fin (b + s * q), .fin 0, .fin mu⟩ } } },
    fun s => mu * ((1 - (a + s * p) * (a + s * p)) * (b + s * q)) - (a + s * p), fun s =>
    ⟨reads_lens Lens.vanDerPol (by simp) (.inl rfl) hs, reads_lens Lens.vanDerPol (by simp) (.inl rfl) hs,
      reads_lens Lens.vanDerPol (by simp) (.inl rfl) hs, reads_lens Lens.vanDerPol (by simp) (.inl rfl) hs⟩⟩

end FMI2

namespace FMI3

/-- **C33**, FMI 3.0. In Initialization Mode the parameter `mu` may be among the knowns as well. -/
theorem C33_fmi3 {w : World XRat (VanDerPol.Data XRat)} {a b mu : Rat} (h1 : Reads VanDerPol.model w .float64 1 (.fin a))
    (h3 : Reads VanDerPol.model w .float64 3 (.fin b)) (h5 : Reads VanDerPol.model w .float64 5 (.fin mu))
    (hd : w.inst.ctx.state ∈ Spec.allowedIn .getDirectionalDerivative)
    (us ks : List Nat) (hus : ∀ u ∈ us, u = 2 ∨ u = 4)
    (hks : ∀ k ∈ ks, k = 1 ∨ k = 3 ∨ k = 5 ∧ w.inst.ctx.state = .initializationMode)
    (seed : List Rat) (hl : seed.length = ks.length) :
    ∃ out : List Rat, out.length = us.length ∧ Directional VanDerPol.model w us ks (seed.map .fin) (out.map .fin) ∧
      ∀ x ∈ us.zip out, ∀ (ws : Rat → World XRat (VanDerPol.Data XRat)) (g : Rat → Rat),
        (∀ s, Reads VanDerPol.model (ws s) .float64 1 (.fin (a + s * seedOf 1 ks seed)) ∧
          Reads VanDerPol.model (ws s) .float64 3 (.fin (b + s * seedOf 3 ks seed)) ∧
          Reads VanDerPol.model (ws s) .float64 5 (.fin (mu + s * seedOf 5 ks seed)) ∧
          Reads VanDerPol.model (ws s) .float64 x.1 (.fin (g s))) →
        IsDerivative g x.2 := by
  have hs := h1.allowed
  have e1 : w.inst.mv.data.x0 = .fin a := (reads_lens Lens.vanDerPol (by simp) hs).unique h1
  have e3 : w.inst.mv.data.x1 = .fin b := (reads_lens Lens.vanDerPol (by simp) hs).unique h3
  have e5 : w.inst.mv.data.mu = .fin mu := (reads_lens Lens.vanDerPol (by simp) hs).unique h5
  refine ⟨us.map fun u => dot (ks.map (vdpJ (w.inst.ctx.state = .initializationMode) a b mu u)) seed, by simp, ?_, ?_⟩
  · simpa [List.map_map, Function.comp_def] using directional vanDerPol_partial (vdp_fin e1 e3 e5) hd us ks seed hl
  · intro x hx ws g hw
    obtain ⟨hx1, hx2⟩ := mem_zip_map hx
    rw [hx2]
    refine vdp_derivative hl (by simpa using hks) (hus _ hx1) (fun hu s => ?_) (fun hu s => ?_)
    · obtain ⟨-, r3, -, r⟩ := hw s
      rw [hu] at r
      have := r.unique (reads_lens Lens.vanDerPol (by simp) r.allowed)
      have e3 := r3.unique (reads_lens Lens.vanDerPol (by simp) r.allowed)
      exact XRat.fin.inj (this.trans e3.symm)
    · obtain ⟨r1, r3, r5, r⟩ := hw s
      rw [hu] at r
      have e := r.unique (reads_lens Lens.vanDerPol (by simp) r.allowed)
      have e1 := r1.unique (reads_lens Lens.vanDerPol (by simp) r.allowed)
      have e3 := r3.unique (reads_lens Lens.vanDerPol (by simp) r.allowed)
      have e5 := r5.unique (reads_lens Lens.vanDerPol (by simp) r.allowed)
      refine XRat.fin.inj (e.trans ?_)
      show (ws s).inst.mv.data.mu *. ((Arith.lit 1 -. (ws s).inst.mv.data.x0 *. (ws s).inst.mv.data.x0) *. (ws s).inst.mv.data.x1) -.
        (ws s).inst.mv.data.x0 = _
      rw [show (ws s).inst.mv.data.x0 = _ from e1.symm, show (ws s).inst.mv.data.x1 = _ from e3.symm,
        show (ws s).inst.mv.data.mu = _ from e5.symm]
      rfl

/-- Instances as the theorem speaks of exist for every direction. -/
example (w : World XRat (VanDerPol.Data XRat)) (hs : w.inst.ctx.state ∈ Spec.allowedIn (.get .float64)) (a b mu p q : Rat) :
    ∃ (ws : Rat → World XRat (VanDerPol.Data XRat)) (g : Rat → Rat), ∀ s,
      Reads VanDerPol.model (ws s) .float64 1 (.fin (a + s * p)) ∧ Reads VanDerPol.model (ws s) .float64 3 (.fin (b + s * q)) ∧
      Reads VanDerPol.model (ws s) .float64 5 (.fin mu) ∧ Reads VanDerPol.model (ws s) .float64 4 (.fin (g s)) :=
  ⟨fun s => { w with inst := { w.inst with mv := { w.inst.mv with data := ⟨.fin (a + s * p), .fin 0, .fin (b + s * q), .fin 0, .fin mu⟩ } } },
    fun s => mu * ((1 - (a + s * p) * (a + s * p)) * (b + s * q)) - (a + s * p), fun s =>
    ⟨reads_lens Lens.vanDerPol (by simp) hs, reads_lens Lens.vanDerPol (by simp) hs,
      reads_lens Lens.vanDerPol (by simp) hs, reads_lens Lens.vanDerPol (by simp) hs⟩⟩

/-- Non-vacuity: the derivative of der(x1) at x0 = 3, x1 = 2 in the direction (1, 0) is -2 * 3 * 2 - 1 = -13; with
the state moved by 1/100 the reported der(x1) changes from -19 to -19.1302, that is by -0.1302. -/
example : (Ex.runME3 VanDerPol.model (Ex.init3 ++
    [.enterContinuousTimeMode, .setContinuousStates (some [.fin 3, .fin 2]) 2,
      .getDirectionalDerivative (some [4]) 1 (some [1]) 1 (some [.fin 1]) (some [.nan]), .getDerivatives (some [.fin 0, .fin 0]) 2,
      .setContinuousStates (some [.fin (3.01), .fin 2]) 2, .getDerivatives (some [.fin 0, .fin 0]) 2])).is (fun x =>
      x.2.drop 4 == [(.OK, .reals (some [.fin (-13)])), (.OK, .reals (some [.fin 2, .fin (-19)])), (.OK, .unit),
        (.OK, .reals (some [.fin 2, .fin (-19.1302)]))]) = true := by
  decide +kernel

end FMI3
end Verif
