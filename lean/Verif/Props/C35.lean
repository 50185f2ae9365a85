import Verif.Props.C34

/-!
# C35: Roberts

In ODE mode (`dae`, reference 1, is false) mass is conserved. The derivative functions treat `y3` as an
independent variable, which is right if `dae` is set and wrong otherwise.
-/

namespace Verif

/-- The derivative of the right-hand side and the residual of Roberts with independent `y3`. -/
theorem rob_derivative {a b c : Rat} {ks : List Nat} {seed : List Rat} (hl : seed.length = ks.length)
    (hks : ∀ k ∈ ks, k = 2 ∨ k = 4 ∨ k = 6) {u : Nat} (hu : u = 3 ∨ u = 5 ∨ u = 8) {g : Rat → Rat}
    (h3 : u = 3 → ∀ s, g s = -(4 / 100) * (a + s * seedOf 2 ks seed) + 10000 * (b + s * seedOf 4 ks seed) * (c + s * seedOf 6 ks seed))
    (h5 : u = 5 → ∀ s, g s = 4 / 100 * (a + s * seedOf 2 ks seed) - 10000 * (b + s * seedOf 4 ks seed) * (c + s * seedOf 6 ks seed) -
      30000000 * (b + s * seedOf 4 ks seed) * (b + s * seedOf 4 ks seed))
    (h8 : u = 8 → ∀ s, g s = (a + s * seedOf 2 ks seed) + (b + s * seedOf 4 ks seed) + (c + s * seedOf 6 ks seed) - 1) :
    IsDerivative g (dot (ks.map (robJ b c u)) seed) := by
  rw [dot_seedOf (robJ b c u) (R := [2, 4, 6]) (by decide) ks seed
    (fun k hk hn => by rcases hks k hk with rfl | rfl | rfl <;> simp at hn) hl]
  rcases hu with rfl | rfl | rfl
  · have hg := h3 rfl
    refine IsDerivative.poly (10000 * seedOf 4 ks seed * seedOf 6 ks seed) 0 0 fun s => ?_
    rw [hg s, hg 0]
    simp [robJ]; ring
  · have hg := h5 rfl
    refine IsDerivative.poly (-10000 * seedOf 4 ks seed * seedOf 6 ks seed - 30000000 * seedOf 4 ks seed * seedOf 4 ks seed) 0 0 fun s => ?_
    rw [hg s, hg 0]
    simp [robJ]; ring
  · have hg := h8 rfl
    refine IsDerivative.poly 0 0 0 fun s => ?_
    rw [hg s, hg 0]
    simp [robJ]; ring

namespace FMI3

/-- **C35**, mass: in ODE mode the reported values add up to one and the residual is zero. -/
theorem C35_mass {w : World XRat (Roberts.Data XRat)} (hd : Reads Roberts.model w .boolean 1 false) {y1 y2 : Rat}
    (h1 : Reads Roberts.model w .float64 2 (.fin y1)) (h2 : Reads Roberts.model w .float64 4 (.fin y2)) {y3 r : XRat}
    (h3 : Reads Roberts.model w .float64 6 y3) (hr : Reads Roberts.model w .float64 8 r) :
    (∃ q, y3 = .fin q ∧ y1 + y2 + q = 1) ∧ r = .fin 0 := by
  have hs := h1.allowed
  have ed : w.inst.mv.data.dae = false := (reads_lens Lens.roberts (t := .boolean) (r := 1) (by simp) hd.allowed).unique hd
  have e1 : w.inst.mv.data.y1 = .fin y1 := (reads_lens Lens.roberts (by simp) hs).unique h1
  have e2 : w.inst.mv.data.y2 = .fin y2 := (reads_lens Lens.roberts (by simp) hs).unique h2
  have e3 := h3.unique (reads_lens Lens.roberts (by simp) hs)
  have er := hr.unique (reads_lens Lens.roberts (by simp) hs)
  have hy : Lens.robertsY3 w.inst.mv.data = .fin (1 - y1 - y2) := by
    rw [Lens.robertsY3, ed, e1, e2]; rfl
  refine ⟨⟨1 - y1 - y2, e3.trans hy, by ring⟩, er.trans ?_⟩
  show w.inst.mv.data.y1 +. w.inst.mv.data.y2 +. Lens.robertsY3 w.inst.mv.data -. Arith.lit 1 = _
  rw [hy, e1, e2]
  simp only [XRat.add_fin, XRat.lit_eq, XRat.sub_fin]
  congr 1; ring

/-- Non-vacuity: after ten internal steps. -/
example : (Ex.runCS3 Roberts.model false false (Ex.init3 ++
    [.doStep (.fin 0) (.fin (1 / 100000)) Ex.stepOut, .get .float64 (some [8]) 1 (some [.nan]) 1])).is (fun x =>
      x.2.getLast? == some (.OK, .values .float64 (some [.fin 0]))) = true := by
  decide +kernel

/-- **C35**, derivatives, if `dae` is set. What is missing: ODE mode, see `C35_violated`. -/
theorem C35_derivatives_partial {w : World XRat (Roberts.Data XRat)} (hd : Reads Roberts.model w .boolean 1 true) {a b c : Rat}
    (h2 : Reads Roberts.model w .float64 2 (.fin a)) (h4 : Reads Roberts.model w .float64 4 (.fin b))
    (h6 : Reads Roberts.model w .float64 6 (.fin c)) (ha : w.inst.ctx.state ∈ Spec.allowedIn .getDirectionalDerivative)
    (us ks : List Nat) (hus : ∀ u ∈ us, u = 3 ∨ u = 5 ∨ u = 8) (hks : ∀ k ∈ ks, k = 2 ∨ k = 4 ∨ k = 6)
    (seed : List Rat) (hl : seed.length = ks.length) :
    ∃ out : List Rat, out.length = us.length ∧ Directional Roberts.model w us ks (seed.map .fin) (out.map .fin) ∧
      ∀ x ∈ us.zip out, ∀ (ws : Rat → World XRat (Roberts.Data XRat)) (g : Rat → Rat),
        (∀ s, Reads Roberts.model (ws s) .boolean 1 true ∧
          Reads Roberts.model (ws s) .float64 2 (.fin (a + s * seedOf 2 ks seed)) ∧
          Reads Roberts.model (ws s) .float64 4 (.fin (b + s * seedOf 4 ks seed)) ∧
          Reads Roberts.model (ws s) .float64 6 (.fin (c + s * seedOf 6 ks seed)) ∧
          Reads Roberts.model (ws s) .float64 x.1 (.fin (g s))) →
        IsDerivative g x.2 := by
  have hs := h2.allowed
  have e4 : w.inst.mv.data.y2 = .fin b := (reads_lens Lens.roberts (by simp) hs).unique h4
  have e6 : Lens.robertsY3 w.inst.mv.data = .fin c := (reads_lens Lens.roberts (by simp) hs).unique h6
  refine ⟨us.map fun u => dot (ks.map (robJ b c u)) seed, by simp, ?_, ?_⟩
  · simpa [List.map_map, Function.comp_def] using directional roberts_partial (rob_fin e4 e6) ha us ks seed hl
  · intro x hx ws g hw
    obtain ⟨hx1, hx2⟩ := mem_zip_map hx
    rw [hx2]
    have key : ∀ s, (ws s).inst.mv.data.y1 = .fin (a + s * seedOf 2 ks seed) ∧ (ws s).inst.mv.data.y2 = .fin (b + s * seedOf 4 ks seed) ∧
        Lens.robertsY3 (ws s).inst.mv.data = .fin (c + s * seedOf 6 ks seed) := fun s =>
      let ⟨_, r2, r4, r6, r⟩ := hw s
      ⟨(reads_lens Lens.roberts (by simp) r.allowed).unique r2, (reads_lens Lens.roberts (by simp) r.allowed).unique r4,
        (reads_lens Lens.roberts (by simp) r.allowed).unique r6⟩
    refine rob_derivative (a := a) hl hks (hus _ hx1) (fun hu s => ?_) (fun hu s => ?_) (fun hu s => ?_) <;>
    · obtain ⟨-, -, -, -, r⟩ := hw s
      obtain ⟨k2, k4, k6⟩ := key s
      rw [hu] at r
      refine XRat.fin.inj ((r.unique (reads_lens Lens.roberts (by simp) r.allowed)).trans ?_)
      simp only [Lens.roberts, k2, k4, k6]
      rfl

/-- Non-vacuity: `dae` is set before initialization. -/
example : (Ex.runME3 Roberts.model ([.set .boolean (some [1]) 1 (some [true]) 1] ++ Ex.init3 ++
    [.set .float64 (some [2, 4, 6]) 3 (some [.fin (1/2), .fin (1/4), .fin (1/8)]) 3,
      .getDirectionalDerivative (some [3, 5, 8]) 3 (some [4]) 1 (some [.fin 1]) (some [.nan, .nan, .nan])])).is (fun x =>
      x.2.drop 3 == [(.OK, .unit), (.OK, .reals (some [.fin 1250, .fin (-15001250), .fin 1]))]) = true := by
  decide +kernel

/-- The full claim fails in ODE mode. In this history y1 = 1/2, y2 = 1/4, y3 = 1/4 and the function returns 2500 for
the derivative of der(y1) with respect to y2. But whatever instances report y2 = 1/4 + s with the same y1, the
derivative of the der(y1) they report is 0 and not 2500. -/
theorem C35_violated :
    (Ex.runME3 Roberts.model (Ex.init3 ++
      [.set .float64 (some [2, 4]) 2 (some [.fin (1/2), .fin (1/4)]) 2, .get .float64 (some [2, 4, 6]) 3 (some [.nan, .nan, .nan]) 3,
        .getDirectionalDerivative (some [3]) 1 (some [4]) 1 (some [.fin 1]) (some [.nan])])).is (fun x =>
        x.2.drop 2 == [(.OK, .unit), (.OK, .values .float64 (some [.fin (1/2), .fin (1/4), .fin (1/4)])), (.OK, .reals (some [.fin 2500]))])
          = true ∧
    ∀ (ws : Rat → World XRat (Roberts.Data XRat)) (g : Rat → Rat),
      (∀ s, Reads Roberts.model (ws s) .boolean 1 false ∧ Reads Roberts.model (ws s) .float64 2 (.fin (1/2)) ∧
        Reads Roberts.model (ws s) .float64 4 (.fin (1/4 + s)) ∧ Reads Roberts.model (ws s) .float64 3 (.fin (g s))) →
      IsDerivative g 0 ∧ ¬ IsDerivative g 2500 := by
  refine ⟨by decide +kernel, fun ws g hw => ?_⟩
  have hg : ∀ s, g s = -(4 / 100) * (1 / 2) + 10000 * (1 / 4 + s) * (1 - 1 / 2 - (1 / 4 + s)) := by
    intro s
    obtain ⟨rd, r2, r4, r⟩ := hw s
    have ed : (ws s).inst.mv.data.dae = false := (reads_lens Lens.roberts (t := .boolean) (r := 1) (by simp) rd.allowed).unique rd
    have e2 : (ws s).inst.mv.data.y1 = .fin (1/2) := (reads_lens Lens.roberts (by simp) r.allowed).unique r2
    have e4 : (ws s).inst.mv.data.y2 = .fin (1/4 + s) := (reads_lens Lens.roberts (by simp) r.allowed).unique r4
    refine XRat.fin.inj ((r.unique (reads_lens Lens.roberts (by simp) r.allowed)).trans ?_)
    simp only [Lens.roberts, Lens.robertsY3, ed, e2, e4]
    rfl
  have h0 : IsDerivative g 0 := IsDerivative.poly (-10000) 0 0 fun s => by rw [hg s, hg 0]; ring
  refine ⟨h0, fun h => ?_⟩
  have := h0.unique h
  norm_num at this

end FMI3
end Verif
