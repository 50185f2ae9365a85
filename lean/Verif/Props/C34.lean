import Verif.Lemmas.DerivRef

/-!
# C34: directional and adjoint derivatives are linear and adjoint to each other

For every FMU that offers them, in exact arithmetic: seeds and variables are finite. The lists of unknowns
and knowns may have any length, contain repetitions and references that do not exist.
-/

namespace Verif
variable {D : Type} {m : Model XRat D}

namespace FMI2

/-- The call succeeds whatever the lists are, and gives one finite value for each unknown. -/
theorem C34_fmi2_defined (hm : HasDerivatives m) {w : World XRat D} (hf : AllFinite m w)
    (hs : w.inst.ctx.state ∈ Spec.allowedIn .getDirectionalDerivative) (us ks : List Nat) (seed : List Rat)
    (hl : seed.length = ks.length) :
    ∃ out : List Rat, out.length = us.length ∧ Directional m w us ks (seed.map .fin) (out.map .fin) := by
  obtain ⟨J, hJ, J', h⟩ := exists_jacobian hm hf hs
  refine ⟨us.map fun u => dot (ks.map (J' u)) seed, by simp, ?_⟩
  have := directional hJ h hs us ks seed hl
  simpa [List.map_map, Function.comp_def] using this

/-- **C34**, FMI 2.0, additive. -/
theorem C34_fmi2_add (hm : HasDerivatives m) {w : World XRat D} (hf : AllFinite m w)
    (hs : w.inst.ctx.state ∈ Spec.allowedIn .getDirectionalDerivative) {us ks : List Nat} {a b oa ob : List Rat}
    (hla : a.length = ks.length) (hlb : b.length = ks.length)
    (ha : Directional m w us ks (a.map .fin) (oa.map .fin)) (hb : Directional m w us ks (b.map .fin) (ob.map .fin)) :
    Directional m w us ks ((List.zipWith (· + ·) a b).map .fin) ((List.zipWith (· + ·) oa ob).map .fin) := by
  obtain ⟨J, hJ, J', h⟩ := exists_jacobian hm hf hs
  have e1 : oa = us.map fun u => dot (ks.map (J' u)) a :=
    map_fin_inj (ha.unique (by simpa [List.map_map, Function.comp_def] using directional hJ h hs us ks a hla))
  have e2 : ob = us.map fun u => dot (ks.map (J' u)) b :=
    map_fin_inj (hb.unique (by simpa [List.map_map, Function.comp_def] using directional hJ h hs us ks b hlb))
  have := directional hJ h hs us ks (List.zipWith (· + ·) a b) (by simp [hla, hlb])
  have e3 : (List.zipWith (· + ·) oa ob) = us.map fun u => dot (ks.map (J' u)) (List.zipWith (· + ·) a b) := by
    rw [e1, e2, List.zipWith_map, List.zipWith_self]
    exact List.map_congr_left fun u _ => (dot_add _ a b (by omega)).symm
  rw [e3, List.map_map]
  exact this

/-- **C34**, FMI 2.0, homogeneous. -/
theorem C34_fmi2_smul (hm : HasDerivatives m) {w : World XRat D} (hf : AllFinite m w)
    (hs : w.inst.ctx.state ∈ Spec.allowedIn .getDirectionalDerivative) {us ks : List Nat} {a oa : List Rat}
    (hla : a.length = ks.length) (q : Rat) (ha : Directional m w us ks (a.map .fin) (oa.map .fin)) :
    Directional m w us ks ((a.map (q * ·)).map .fin) ((oa.map (q * ·)).map .fin) := by
  obtain ⟨J, hJ, J', h⟩ := exists_jacobian hm hf hs
  have e1 : oa = us.map fun u => dot (ks.map (J' u)) a :=
    map_fin_inj (ha.unique (by simpa [List.map_map, Function.comp_def] using directional hJ h hs us ks a hla))
  have := directional hJ h hs us ks (a.map (q * ·)) (by simp [hla])
  have e3 : (oa.map (q * ·)) = us.map fun u => dot (ks.map (J' u)) (a.map (q * ·)) := by
    rw [e1, List.map_map]
    exact List.map_congr_left fun u _ => (dot_smul _ q a).symm
  rw [e3]
  simpa only [List.map_map, Function.comp_def] using this

/-- Every state of VanDerPol in which time, states and parameter are finite meets the hypothesis. -/
theorem vanDerPol_allFinite {w : World XRat (VanDerPol.Data XRat)} {t a b mu : Rat} (ht : w.inst.ctx.time = .fin t)
    (ha : w.inst.mv.data.x0 = .fin a) (hb : w.inst.mv.data.x1 = .fin b) (hmu : w.inst.mv.data.mu = .fin mu) :
    AllFinite VanDerPol.model w := by
  intro r v h
  have hs := h.allowed
  match r, h with
  | 0, h => exact ⟨t, (h.unique (reads_lens Lens.vanDerPol (by simp) (.inl rfl) hs)).trans ht⟩
  | 1, h => exact ⟨a, (h.unique (reads_lens Lens.vanDerPol (by simp) (.inl rfl) hs)).trans ha⟩
  | 2, h => exact ⟨b, (h.unique (reads_lens Lens.vanDerPol (by simp) (.inl rfl) hs)).trans hb⟩
  | 3, h => exact ⟨b, (h.unique (reads_lens Lens.vanDerPol (by simp) (.inl rfl) hs)).trans hb⟩
  | 4, h => exact ⟨_, (h.unique (reads_lens Lens.vanDerPol (by simp) (.inl rfl) hs)).trans
      (by show w.inst.mv.data.mu *. ((Arith.lit 1 -. w.inst.mv.data.x0 *. w.inst.mv.data.x0) *. w.inst.mv.data.x1) -. w.inst.mv.data.x0 = _
          rw [ha, hb, hmu]; rfl)⟩
  | 5, h => exact ⟨mu, (h.unique (reads_lens Lens.vanDerPol (by simp) (.inl rfl) hs)).trans hmu⟩
  | r + 6, h =>
    obtain ⟨w', e⟩ := h 0 (.fin 0)
    have hm : allowed w.inst.ctx MASK_GetReal = true := (allowed_fn w.inst.ctx .getReal).2 hs
    simp only [step, getReal, World.run] at e
    rw [begin_ok (mask := MASK_GetReal) hm] at e
    exfalso
    cases hd : w.inst.mv.isDirtyValues <;>
      simp [getVariables, refresh, assertNonNull, hd, call, Comp.lift, getLoop, Ptr.read, VanDerPol.model, VanDerPol.getFloat64, Model.get,
        assertNotNull, failM, Status.rank] at e

/-- Non-vacuity: VanDerPol after initialization. -/
example : (Ex.run2 VanDerPol.model .coSimulation (Ex.init2 ++
    [.getDirectionalDerivative (some [2, 4, 2]) 3 (some [1, 3]) 2 (some [.fin 5, .fin 7]) (some [.nan, .nan, .nan])])).is (fun x =>
      x.2.drop 3 == [(.OK, .reals (some [.fin 7, .fin (-26), .fin 7]))]) = true := by
  decide +kernel

end FMI2

namespace FMI3

/-- The calls succeed whatever the lists are, and give one finite value for each unknown or known. -/
theorem C34_fmi3_defined (hm : HasDerivatives m) {w : World XRat D} (hf : AllFinite m w)
    (hs : w.inst.ctx.state ∈ Spec.allowedIn .getDirectionalDerivative) (us ks : List Nat) :
    (∀ seed : List Rat, seed.length = ks.length →
      ∃ out : List Rat, out.length = us.length ∧ Directional m w us ks (seed.map .fin) (out.map .fin)) ∧
    (∀ seed : List Rat, seed.length = us.length →
      ∃ out : List Rat, out.length = ks.length ∧ Adjoint m w us ks (seed.map .fin) (out.map .fin)) := by
  obtain ⟨J, hJ, J', h⟩ := exists_jacobian hm hf hs
  refine ⟨fun seed hl => ⟨us.map fun u => dot (ks.map (J' u)) seed, by simp, ?_⟩,
    fun seed hl => ⟨ks.map fun k => dot (us.map fun u => J' u k) seed, by simp, ?_⟩⟩
  · simpa [List.map_map, Function.comp_def] using directional hJ h hs us ks seed hl
  · simpa [List.map_map, Function.comp_def] using adjoint hJ h hs us ks seed hl

/-- **C34**, FMI 3.0, additive. -/
theorem C34_fmi3_add (hm : HasDerivatives m) {w : World XRat D} (hf : AllFinite m w)
    (hs : w.inst.ctx.state ∈ Spec.allowedIn .getDirectionalDerivative) {us ks : List Nat} {a b oa ob : List Rat}
    (hla : a.length = ks.length) (hlb : b.length = ks.length)
    (ha : Directional m w us ks (a.map .fin) (oa.map .fin)) (hb : Directional m w us ks (b.map .fin) (ob.map .fin)) :
    Directional m w us ks ((List.zipWith (· + ·) a b).map .fin) ((List.zipWith (· + ·) oa ob).map .fin) := by
  obtain ⟨J, hJ, J', h⟩ := exists_jacobian hm hf hs
  have e1 : oa = us.map fun u => dot (ks.map (J' u)) a :=
    map_fin_inj (ha.unique (by simpa [List.map_map, Function.comp_def] using directional hJ h hs us ks a hla))
  have e2 : ob = us.map fun u => dot (ks.map (J' u)) b :=
    map_fin_inj (hb.unique (by simpa [List.map_map, Function.comp_def] using directional hJ h hs us ks b hlb))
  have := directional hJ h hs us ks (List.zipWith (· + ·) a b) (by simp [hla, hlb])
  have e3 : (List.zipWith (· + ·) oa ob) = us.map fun u => dot (ks.map (J' u)) (List.zipWith (· + ·) a b) := by
    rw [e1, e2, List.zipWith_map, List.zipWith_self]
    exact List.map_congr_left fun u _ => (dot_add _ a b (by omega)).symm
  rw [e3, List.map_map]
  exact this

/-- **C34**, FMI 3.0, homogeneous. -/
theorem C34_fmi3_smul (hm : HasDerivatives m) {w : World XRat D} (hf : AllFinite m w)
    (hs : w.inst.ctx.state ∈ Spec.allowedIn .getDirectionalDerivative) {us ks : List Nat} {a oa : List Rat}
    (hla : a.length = ks.length) (q : Rat) (ha : Directional m w us ks (a.map .fin) (oa.map .fin)) :
    Directional m w us ks ((a.map (q * ·)).map .fin) ((oa.map (q * ·)).map .fin) := by
  obtain ⟨J, hJ, J', h⟩ := exists_jacobian hm hf hs
  have e1 : oa = us.map fun u => dot (ks.map (J' u)) a :=
    map_fin_inj (ha.unique (by simpa [List.map_map, Function.comp_def] using directional hJ h hs us ks a hla))
  have := directional hJ h hs us ks (a.map (q * ·)) (by simp [hla])
  have e3 : (oa.map (q * ·)) = us.map fun u => dot (ks.map (J' u)) (a.map (q * ·)) := by
    rw [e1, List.map_map]
    exact List.map_congr_left fun u _ => (dot_smul _ q a).symm
  rw [e3]
  simpa only [List.map_map, Function.comp_def] using this

/-- **C34**, FMI 3.0: `<a, J b> = <Jᵀ a, b>`. -/
theorem C34_fmi3_adjoint (hm : HasDerivatives m) {w : World XRat D} (hf : AllFinite m w)
    (hs : w.inst.ctx.state ∈ Spec.allowedIn .getDirectionalDerivative) {us ks : List Nat} {a b ja jb : List Rat}
    (hla : a.length = us.length) (hlb : b.length = ks.length)
    (hb : Directional m w us ks (b.map .fin) (jb.map .fin)) (ha : Adjoint m w us ks (a.map .fin) (ja.map .fin)) :
    dot a jb = dot ja b := by
  obtain ⟨J, hJ, J', h⟩ := exists_jacobian hm hf hs
  have e1 : jb = us.map fun u => dot (ks.map (J' u)) b :=
    map_fin_inj (hb.unique (by simpa [List.map_map, Function.comp_def] using directional hJ h hs us ks b hlb))
  have e2 : ja = ks.map fun k => dot (us.map fun u => J' u k) a :=
    map_fin_inj (ha.unique (by simpa [List.map_map, Function.comp_def] using adjoint hJ h hs us ks a hla))
  rw [e1, e2]
  exact dot_adjoint J' us ks a b hla hlb

/-- Every state of VanDerPol in which time, states and parameter are finite meets the hypothesis. -/
theorem vanDerPol_allFinite {w : World XRat (VanDerPol.Data XRat)} {t a b mu : Rat} (ht : w.inst.ctx.time = .fin t)
    (ha : w.inst.mv.data.x0 = .fin a) (hb : w.inst.mv.data.x1 = .fin b) (hmu : w.inst.mv.data.mu = .fin mu) :
    AllFinite VanDerPol.model w := by
  intro r v h
  have hs := h.allowed
  match r, h with
  | 0, h => exact ⟨t, (h.unique (reads_lens Lens.vanDerPol (by simp) hs)).trans ht⟩
  | 1, h => exact ⟨a, (h.unique (reads_lens Lens.vanDerPol (by simp) hs)).trans ha⟩
  | 2, h => exact ⟨b, (h.unique (reads_lens Lens.vanDerPol (by simp) hs)).trans hb⟩
  | 3, h => exact ⟨b, (h.unique (reads_lens Lens.vanDerPol (by simp) hs)).trans hb⟩
  | 4, h => exact ⟨_, (h.unique (reads_lens Lens.vanDerPol (by simp) hs)).trans
      (by show w.inst.mv.data.mu *. ((Arith.lit 1 -. w.inst.mv.data.x0 *. w.inst.mv.data.x0) *. w.inst.mv.data.x1) -. w.inst.mv.data.x0 = _
          rw [ha, hb, hmu]; rfl)⟩
  | 5, h => exact ⟨mu, (h.unique (reads_lens Lens.vanDerPol (by simp) hs)).trans hmu⟩
  | r + 6, h =>
    obtain ⟨w', e⟩ := h 0 (.fin 0)
    have hm : allowed w.inst.ctx MASK_Get = true := (allowed_fn w.inst.ctx (.get .float64)).2 hs
    exfalso
    simp only [step, World.run, getVars] at e
    rw [begin_ok (mask := MASK_Get) hm] at e
    cases hd : w.inst.mv.isDirtyValues <;>
      simp [refresh, assertNonNull, hd, call, Comp.lift, getLoop, Ptr.read, VanDerPol.model, VanDerPol.getFloat64, Model.get,
        assertNotNull, failM, Status.rank] at e

/-- Non-vacuity: VanDerPol after initialization, both directions: 1 * 7 + 2 * (-26) = (-2) * 5 + (-5) * 7. -/
example : (Ex.runME3 VanDerPol.model (Ex.init3 ++
    [.getDirectionalDerivative (some [2, 4]) 2 (some [1, 3]) 2 (some [.fin 5, .fin 7]) (some [.nan, .nan]),
      .getAdjointDerivative (some [2, 4]) 2 (some [1, 3]) 2 (some [.fin 1, .fin 2]) (some [.nan, .nan])])).is (fun x =>
      x.2.drop 2 == [(.OK, .reals (some [.fin 7, .fin (-26)])), (.OK, .reals (some [.fin (-2), .fin (-5)]))]) = true := by
  decide +kernel

end FMI3
end Verif
