import Verif.Lemmas.Jacobian
import Verif.Lemmas.Programs
import Verif.Lemmas.Driver
import Verif.Lemmas.ExReach
import Verif.Props.C33

/-!
# C72: an importer gets the Jacobian column by column or row by row

The loops are those of examples/jacobian.c, for any unknowns and knowns and for any instance; `C72_program` is the whole program.
-/

namespace Verif
open Importer.CoSim Importer.Jacobian

/-- **C72**: for the FMUs with directional derivatives, in every instance with finite values, for all unknowns `us` and knowns `ks` and whatever the
arrays contain: the loop with `fmi3GetDirectionalDerivative` and the one with `fmi3GetAdjointDerivative`, run after it, give the same matrix, and its
entry for an unknown and a known is the directional derivative for this pair in the instance at the beginning. -/
theorem FMI3.C72 {D : Type} {m : Model XRat D} (hm : HasDerivatives m) {w : FMI3.World XRat D} (hf : FMI3.AllFinite m w)
    (hs : w.inst.ctx.state ∈ FMI3.Spec.allowedIn .getDirectionalDerivative) {us ks : List Nat} {c : List XRat} {M : List (List XRat)}
    (hc : c.length = us.length) (hM : M.length = us.length) (hr : ∀ row ∈ M, row.length = ks.length) (fuel : Nat) :
    ∃ A : List (List XRat), A.length = us.length ∧ (∀ row ∈ A, row.length = ks.length) ∧
      (∃ w' w'', columns m fuel us 0 ks c M w = .ret (w', .OK, A) ∧ rows m fuel ks us [] A w' = .ret (w'', .OK, A)) ∧
      ∀ i j (hi : i < us.length) (hj : j < ks.length), ∃ row ∈ A[i]?, ∃ a : Rat, .fin a ∈ row[j]? ∧
        FMI3.Directional m w [us[i]] [ks[j]] [.fin 1] [.fin a] := by
  obtain ⟨J, hJ, J', h⟩ := FMI3.exists_jacobian hm hf hs
  obtain ⟨w', w'', e1, e2, -⟩ := loops_eq hJ ⟨h, hs⟩ hc hM hr fuel
  refine ⟨_, by simp, by simp, ⟨w', w'', e1, e2⟩, fun i j hi hj => ⟨ks.map fun x => .fin (J' us[i] x), by simp [hi], J' us[i] ks[j], by simp [hj], ?_⟩⟩
  have := FMI3.directional hJ h hs [us[i]] [ks[j]] [1] rfl
  simpa [dot] using this

/-- For VanDerPol the entries are the derivatives of the unknowns: `ws s` are instances in which the known differs by `s` from the one in `w`, and `g s`
is what they report for the unknown. -/
theorem FMI3.C72_vanDerPol {w : FMI3.World XRat (VanDerPol.Data XRat)} {a b mu : Rat} (h1 : FMI3.Reads VanDerPol.model w .float64 1 (.fin a))
    (h3 : FMI3.Reads VanDerPol.model w .float64 3 (.fin b)) (h5 : FMI3.Reads VanDerPol.model w .float64 5 (.fin mu))
    (hs : w.inst.ctx.state ∈ FMI3.Spec.allowedIn .getDirectionalDerivative) {us ks : List Nat} (hus : ∀ u ∈ us, u = 2 ∨ u = 4)
    (hks : ∀ k ∈ ks, k = 1 ∨ k = 3) {c : List XRat} {M : List (List XRat)}
    (hc : c.length = us.length) (hM : M.length = us.length) (hr : ∀ row ∈ M, row.length = ks.length) (fuel : Nat) :
    ∃ A : List (List XRat), A.length = us.length ∧ (∀ row ∈ A, row.length = ks.length) ∧
      (∃ w' w'', columns VanDerPol.model fuel us 0 ks c M w = .ret (w', .OK, A) ∧ rows VanDerPol.model fuel ks us [] A w' = .ret (w'', .OK, A)) ∧
      ∀ i j (hi : i < us.length) (hj : j < ks.length), ∃ row ∈ A[i]?, ∃ q : Rat, .fin q ∈ row[j]? ∧
        ∀ (ws : Rat → FMI3.World XRat (VanDerPol.Data XRat)) (g : Rat → Rat),
          (∀ s, FMI3.Reads VanDerPol.model (ws s) .float64 1 (.fin (if ks[j] = 1 then a + s else a)) ∧
            FMI3.Reads VanDerPol.model (ws s) .float64 3 (.fin (if ks[j] = 3 then b + s else b)) ∧
            FMI3.Reads VanDerPol.model (ws s) .float64 5 (.fin mu) ∧
            FMI3.Reads VanDerPol.model (ws s) .float64 us[i] (.fin (g s))) →
          IsDerivative g q := by
  have e1 := (FMI3.reads_lens Lens.vanDerPol (t := .float64) (r := 1) (by simp) h1.allowed).unique h1
  have e3 := (FMI3.reads_lens Lens.vanDerPol (t := .float64) (r := 3) (by simp) h1.allowed).unique h3
  have e5 := (FMI3.reads_lens Lens.vanDerPol (t := .float64) (r := 5) (by simp) h1.allowed).unique h5
  have hJ' := vdp_fin (ctx := w.inst.ctx) e1 e3 e5
  obtain ⟨w', w'', l1, l2, -⟩ := loops_eq vanDerPol_partial (w := w) ⟨hJ', hs⟩ hc hM hr fuel
  refine ⟨_, by simp, by simp, ⟨w', w'', l1, l2⟩, fun i j hi hj => ⟨ks.map fun x => .fin (vdpJ (w.inst.ctx.state = .initializationMode) a b mu us[i] x),
    by simp [hi], vdpJ (w.inst.ctx.state = .initializationMode) a b mu us[i] ks[j], by simp [hj], fun ws g hw => ?_⟩⟩
  have hk := hks ks[j] (List.getElem_mem _)
  have hu := hus us[i] (List.getElem_mem _)
  generalize us[i] = u at *
  generalize ks[j] = k at *
  obtain ⟨out, ho, hd, hder⟩ := FMI3.C33_fmi3 h1 h3 h5 hs [u] [k] (by simpa using hu) (by simpa using hk.imp_right Or.inl) [1] rfl
  have ho' : out = [vdpJ (w.inst.ctx.state = .initializationMode) a b mu u k] := by
    have := hd.unique (FMI3.directional vanDerPol_partial (w := w) hJ' hs [u] [k] [1] rfl)
    simpa only [dot, List.map_cons, List.map_nil, List.zip_cons_cons, List.zip_nil_left, List.sum_cons, List.sum_nil, List.zipWith_cons_cons,
      List.zipWith_nil_left, mul_one, add_zero, ← List.map_cons] using map_fin_inj (b := [dot [_] [1]]) this
  subst ho'
  refine hder (u, vdpJ (w.inst.ctx.state = .initializationMode) a b mu u k) (List.mem_singleton.2 rfl) ws g fun s => ?_
  obtain ⟨r1, r3, r5, r⟩ := hw s
  rcases hk with rfl | rfl <;> simp [seedOf] at r1 r3 ⊢ <;> exact ⟨r1, r3, r5, r⟩

/-- The program examples/jacobian.c with VanDerPol ends with `fmi3OK`, and its assertions hold, whatever the arrays contain that are not initialized. -/
theorem C72_program (fuel : Nat) (x c : List XRat) (M : List (List XRat)) (hx : x.length = 2) (hc : c.length = 2) (hM : M.length = 2)
    (hr : ∀ row ∈ M, row.length = 2) : jacobian VanDerPol.model fuel x c M = .ret (.OK, true) := by
  have : ∃ c l, FMI3.instantiateModelExchange (VanDerPol.model : Model XRat _) (some "instance1") (some (VanDerPol.model : Model XRat _).token) none
        false true true = (some c, l) ∧
      ∃ w vs, AllOK (FMI3.step VanDerPol.model fuel) (.fresh c) [.enterInitializationMode (Arith.lit 0) false (Arith.lit 0), .exitInitializationMode,
        .enterContinuousTimeMode] w vs ∧
      ∃ w₁, FMI3.step VanDerPol.model fuel w (.getContinuousStates (some x) 2) = .ret (w₁, .OK, .reals (some [.fin 2, .fin 0])) ∧
      ∃ w₂ vs₂, AllOK (FMI3.step VanDerPol.model fuel) w₁ [.setTime (Arith.lit 0), .setContinuousStates (some [.fin 2, .fin 0]) 2] w₂ vs₂ ∧
        w₂.inst.ctx.state = .continuousTimeMode ∧ w₂.inst.mv.data.x0 = .fin 2 ∧ w₂.inst.mv.data.x1 = .fin 0 ∧ w₂.inst.mv.data.mu = .fin 1 := by
    match x, hx with
    | [x1, x2], _ => exact ⟨_, _, rfl, _, _, .cons rfl (.cons rfl (.cons rfl .nil)), _, rfl, _, _, .cons rfl (.cons rfl .nil), rfl, rfl, rfl, rfl⟩
  obtain ⟨c', l, hi, w, vs, ha, w₁, hx', w₂, vs₂, ha₂, hst, d0, d1, dm⟩ := this
  obtain ⟨w₃, w₄, l1, l2, l3⟩ := loops_eq vanDerPol_partial (w := w₂) (us := [2, 4]) (ks := [1, 3]) ⟨vdp_fin d0 d1 dm, by rw [hst]; decide⟩ hc hM hr fuel
  obtain ⟨w₅, o, ht⟩ := FMI3.terminate_ok (m := VanDerPol.model) (fuel := fuel) (w := w₄) (by rw [l3, hst]; decide)
  have hA : asserts ([2, 4].map fun u => [1, 3].map fun x => XRat.fin (vdpJ (w₂.inst.ctx.state = .initializationMode) 2 0 1 u x)) = true := by
    rw [hst]; decide +kernel
  unfold jacobian
  rw [hi]
  simp only [ha.calls, Outcome.ret_bind, ne_eq, not_true_eq_false, if_false, hx', ha₂.calls, l1, hA, if_true, l2]
  rw [tearDown_ok (api := api3 VanDerPol.model fuel (Arith.lit 0)) ht]
  rfl

/-! ### The hypotheses are met -/

/-- A Model Exchange instance of VanDerPol in Continuous-Time Mode, with other values than the start values. -/
example : ∃ w : FMI3.World XRat _, FMI3.Reachable VanDerPol.model .modelExchange w ∧ FMI3.AllFinite VanDerPol.model w ∧
    w.inst.ctx.state ∈ FMI3.Spec.allowedIn .getDirectionalDerivative ∧ FMI3.Reads VanDerPol.model w .float64 1 (.fin 1) ∧
    FMI3.Reads VanDerPol.model w .float64 3 (.fin 3) ∧ FMI3.Reads VanDerPol.model w .float64 5 (.fin 5) ∧
    ∀ fuel, ∃ w' w'', columns VanDerPol.model fuel [2, 4] 0 [1, 3] [.fin 0, .fin 0] [[.fin 0, .fin 0], [.fin 0, .fin 0]] w =
      .ret (w', .OK, [[.fin 0, .fin 1], [.fin (-31), .fin 0]]) ∧
      rows VanDerPol.model fuel [1, 3] [2, 4] [] [[.fin 0, .fin 1], [.fin (-31), .fin 0]] w' = .ret (w'', .OK, [[.fin 0, .fin 1], [.fin (-31), .fin 0]]) := by
  obtain ⟨⟨w, outs⟩, e, h⟩ := Outcome.exists_of_is (r := Ex.runME3 (VanDerPol.model : Model XRat _)
    ([.set .float64 (some [1, 3, 5]) 3 (some [.fin 1, .fin 3, .fin 5]) 3] ++ Ex.init3 ++ [.enterContinuousTimeMode]))
    (p := fun x => decide (x.1.inst.ctx.state = .continuousTimeMode) && decide (x.1.inst.ctx.time = .fin 0) &&
      decide (x.1.inst.mv.data.x0 = .fin 1 ∧ x.1.inst.mv.data.x1 = .fin 3 ∧ x.1.inst.mv.data.mu = .fin 5)) (by decide +kernel)
  simp only [Bool.and_eq_true, decide_eq_true_eq] at h
  obtain ⟨⟨hs, ht⟩, h1, h3, h5⟩ := h
  have hs1 : w.inst.ctx.state ∈ FMI3.Spec.allowedIn (.get .float64) := by rw [hs]; decide
  have hs2 : w.inst.ctx.state ∈ FMI3.Spec.allowedIn .getDirectionalDerivative := by rw [hs]; decide
  have r1 := FMI3.reads_lens Lens.vanDerPol (t := .float64) (r := 1) (by simp) hs1
  have r3 := FMI3.reads_lens Lens.vanDerPol (t := .float64) (r := 3) (by simp) hs1
  have r5 := FMI3.reads_lens Lens.vanDerPol (t := .float64) (r := 5) (by simp) hs1
  simp only [Lens.vanDerPol, h1, h3, h5] at r1 r3 r5
  refine ⟨w, Ex.reach_runME3 e, FMI3.vanDerPol_allFinite ht h1 h3 h5, hs2, r1, r3, r5, fun fuel => ?_⟩
  obtain ⟨w', w'', l1, l2, -⟩ := loops_eq vanDerPol_partial (w := w) (us := [2, 4]) (ks := [1, 3]) (c := [.fin 0, .fin 0])
    (M := [[.fin 0, .fin 0], [.fin 0, .fin 0]]) ⟨vdp_fin h1 h3 h5, hs2⟩ rfl rfl (by simp) fuel
  have hA : ([2, 4].map fun u => [1, 3].map fun x => XRat.fin (vdpJ (w.inst.ctx.state = .initializationMode) 1 3 5 u x)) =
      [[.fin 0, .fin 1], [.fin (-31), .fin 0]] := by
    rw [hs]; decide +kernel
  rw [hA] at l1 l2
  exact ⟨w', w'', l1, l2⟩

end Verif
