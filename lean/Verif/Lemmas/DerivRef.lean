import Verif.Lemmas.Deriv
import Verif.Props.C17

/-! # Lemmas for C33 to C35: the two FMUs with derivatives -/

set_option linter.unusedSectionVars false

namespace Verif

/-- The partial derivatives of VanDerPol. -/
def vdpJ (init : Bool) (x0 x1 mu : Rat) (u k : Nat) : Rat :=
  if u = 2 && k = 1 then 0 else if u = 2 && k = 3 then 1
  else if u = 4 && k = 1 then -2 * x0 * x1 * mu - 1
  else if u = 4 && k = 3 then mu * (1 - x0 * x0)
  else if u = 4 && k = 5 && init then (1 - x0 * x0) * x1 else 0

/-- The partial derivatives of Roberts. -/
def robJ (y2 y3 : Rat) (u k : Nat) : Rat :=
  if u = 3 && k = 2 then -(4 / 100) else if u = 3 && k = 4 then 10000 * y3
  else if u = 3 && k = 6 then 10000 * y2 else if u = 5 && k = 2 then 4 / 100
  else if u = 5 && k = 4 then -10000 * y3 - 60000000 * y2
  else if u = 5 && k = 6 then -10000 * y2
  else if u = 8 && k = 2 then 1 else if u = 8 && k = 4 then 1 else if u = 8 && k = 6 then 1
  else 0

theorem vdp_fin {ctx : Ctx XRat} {d : VanDerPol.Data XRat} {x0 x1 mu : Rat} (h1 : d.x0 = .fin x0) (h2 : d.x1 = .fin x1) (h3 : d.mu = .fin mu)
    (u k : Nat) : (if u = 2 && k = 1 then Arith.lit 0 else if u = 2 && k = 3 then Arith.lit 1
    else if u = 4 && k = 1 then Arith.lit (-2) *. d.x0 *. d.x1 *. d.mu -. Arith.lit 1
    else if u = 4 && k = 3 then d.mu *. (Arith.lit 1 -. d.x0 *. d.x0)
    else if u = 4 && k = 5 && ctx.state = .initializationMode then (Arith.lit 1 -. d.x0 *. d.x0) *. d.x1 else Arith.lit 0 : XRat) =
      .fin (vdpJ (ctx.state = .initializationMode) x0 x1 mu u k) := by
  unfold vdpJ
  simp only [h1, h2, h3, XRat.lit_eq, XRat.mul_fin, XRat.sub_fin]
  repeat' split
  all_goals rfl

theorem rob_fin {d : Roberts.Data XRat} {y2 y3 : Rat} (h2 : d.y2 = .fin y2) (h3 : Lens.robertsY3 d = .fin y3) (u k : Nat) :
    (if u = 3 && k = 2 then Arith.neg Roberts.k1 else if u = 3 && k = 4 then Roberts.k2 *. Lens.robertsY3 d
    else if u = 3 && k = 6 then Roberts.k2 *. d.y2 else if u = 5 && k = 2 then Roberts.k1
    else if u = 5 && k = 4 then Arith.neg Roberts.k2 *. Lens.robertsY3 d -. Arith.lit 60000000 *. d.y2
    else if u = 5 && k = 6 then Arith.neg Roberts.k2 *. d.y2
    else if u = 8 && k = 2 then Arith.lit 1 else if u = 8 && k = 4 then Arith.lit 1 else if u = 8 && k = 6 then Arith.lit 1
    else Arith.lit 0 : XRat) = .fin (robJ y2 y3 u k) := by
  unfold robJ
  simp only [h2, h3, Roberts.k1, Roberts.k2, XRat.lit_eq, XRat.mul_fin, XRat.sub_fin, XRat.neg_fin]
  repeat' split
  all_goals rfl

theorem get_sub2 {s : Mode} (h : s ∈ FMI2.Spec.allowedIn .getDirectionalDerivative) : s ∈ FMI2.Spec.allowedIn .getReal := h

theorem get_sub3 {s : Mode} (h : s ∈ FMI3.Spec.allowedIn .getDirectionalDerivative) : s ∈ FMI3.Spec.allowedIn (.get .float64) := by
  revert h; cases s <;> decide

/-- In a world with finite values the partial derivatives are finite. -/
theorem FMI2.exists_jacobian {D : Type} {m : Model XRat D} (hm : HasDerivatives m) {w : World XRat D} (hf : AllFinite m w)
    (hs : w.inst.ctx.state ∈ Spec.allowedIn .getDirectionalDerivative) : ∃ J, m.Partial J ∧ ∃ J' : Nat → Nat → Rat,
      ∀ u k, J w.inst.ctx w.inst.mv.data u k = .fin (J' u k) := by
  have hs := get_sub2 hs
  cases hm with
  | vanDerPol =>
    obtain ⟨a, ha⟩ := hf _ _ (reads_lens Lens.vanDerPol (t := .float64) (r := 1) (by simp) (.inl rfl) hs)
    obtain ⟨b, hb⟩ := hf _ _ (reads_lens Lens.vanDerPol (t := .float64) (r := 3) (by simp) (.inl rfl) hs)
    obtain ⟨mu, hmu⟩ := hf _ _ (reads_lens Lens.vanDerPol (t := .float64) (r := 5) (by simp) (.inl rfl) hs)
    exact ⟨_, vanDerPol_partial, _, vdp_fin ha hb hmu⟩
  | roberts =>
    obtain ⟨a, ha⟩ := hf _ _ (reads_lens Lens.roberts (t := .float64) (r := 4) (by simp) (.inl rfl) hs)
    obtain ⟨b, hb⟩ := hf _ _ (reads_lens Lens.roberts (t := .float64) (r := 6) (by simp) (.inl rfl) hs)
    exact ⟨_, roberts_partial, _, rob_fin ha hb⟩

theorem FMI3.exists_jacobian {D : Type} {m : Model XRat D} (hm : HasDerivatives m) {w : World XRat D} (hf : AllFinite m w)
    (hs : w.inst.ctx.state ∈ Spec.allowedIn .getDirectionalDerivative) : ∃ J, m.Partial J ∧ ∃ J' : Nat → Nat → Rat,
      ∀ u k, J w.inst.ctx w.inst.mv.data u k = .fin (J' u k) := by
  have hs := get_sub3 hs
  cases hm with
  | vanDerPol =>
    obtain ⟨a, ha⟩ := hf _ _ (reads_lens Lens.vanDerPol (t := .float64) (r := 1) (by simp) hs)
    obtain ⟨b, hb⟩ := hf _ _ (reads_lens Lens.vanDerPol (t := .float64) (r := 3) (by simp) hs)
    obtain ⟨mu, hmu⟩ := hf _ _ (reads_lens Lens.vanDerPol (t := .float64) (r := 5) (by simp) hs)
    exact ⟨_, vanDerPol_partial, _, vdp_fin ha hb hmu⟩
  | roberts =>
    obtain ⟨a, ha⟩ := hf _ _ (reads_lens Lens.roberts (t := .float64) (r := 4) (by simp) hs)
    obtain ⟨b, hb⟩ := hf _ _ (reads_lens Lens.roberts (t := .float64) (r := 6) (by simp) hs)
    exact ⟨_, roberts_partial, _, rob_fin ha hb⟩

theorem FMI2.directional {D : Type} {m : Model XRat D} {J : Ctx XRat → D → Nat → Nat → XRat} (hJ : m.Partial J) {w : World XRat D} {J' : Nat → Nat → Rat}
    (hf : ∀ u k, J w.inst.ctx w.inst.mv.data u k = .fin (J' u k))
    (hs : w.inst.ctx.state ∈ Spec.allowedIn .getDirectionalDerivative) (us ks : List Nat) (seed : List Rat) (hl : seed.length = ks.length) :
    Directional m w us ks (seed.map .fin) (us.map fun u => .fin (dot (ks.map (J' u)) seed)) := by
  intro fuel buf hb
  obtain ⟨mv', e, -⟩ := derivs_fin hJ w.inst us ks hf seed hl buf hb
  have ha := (allowed_fn w.inst.ctx .getDirectionalDerivative).2 hs
  exact ⟨_, by simp only [step, getDirectionalDerivative, World.run]; rw [begin_ok (mask := MASK_GetDirectionalDerivative) ha, e]; rfl⟩

theorem FMI3.directional {D : Type} {m : Model XRat D} {J : Ctx XRat → D → Nat → Nat → XRat} (hJ : m.Partial J) {w : World XRat D} {J' : Nat → Nat → Rat}
    (hf : ∀ u k, J w.inst.ctx w.inst.mv.data u k = .fin (J' u k))
    (hs : w.inst.ctx.state ∈ Spec.allowedIn .getDirectionalDerivative) (us ks : List Nat) (seed : List Rat) (hl : seed.length = ks.length) :
    Directional m w us ks (seed.map .fin) (us.map fun u => .fin (dot (ks.map (J' u)) seed)) := by
  intro fuel buf hb
  obtain ⟨mv', e, -⟩ := derivs_fin hJ w.inst us ks hf seed hl buf hb
  have ha := (allowed_fn w.inst.ctx .getDirectionalDerivative).2 hs
  exact ⟨_, by simp only [step, getDirectionalDerivative, World.run]; rw [begin_ok (mask := MASK_GetDirectionalDerivative) ha, e]; rfl⟩

theorem FMI3.adjoint {D : Type} {m : Model XRat D} {J : Ctx XRat → D → Nat → Nat → XRat} (hJ : m.Partial J) {w : World XRat D} {J' : Nat → Nat → Rat}
    (hf : ∀ u k, J w.inst.ctx w.inst.mv.data u k = .fin (J' u k))
    (hs : w.inst.ctx.state ∈ Spec.allowedIn .getDirectionalDerivative) (us ks : List Nat) (seed : List Rat) (hl : seed.length = us.length) :
    Adjoint m w us ks (seed.map .fin) (ks.map fun k => .fin (dot (us.map fun u => J' u k) seed)) := by
  intro fuel buf hb
  obtain ⟨mv', e, -⟩ := adjoint_fin hJ w.inst us ks hf seed hl buf hb
  have ha := (allowed_fn w.inst.ctx .getDirectionalDerivative).2 hs
  exact ⟨_, by simp only [step, getAdjointDerivative, World.run]; rw [begin_ok (mask := MASK_GetDirectionalDerivative) ha, e]; rfl⟩

theorem FMI2.Directional.unique {F D : Type} [Arith F] [HasInf F] {m : Model F D} {w : World F D} {us ks : List Nat} {seed o1 o2 : List F}
    (h1 : Directional m w us ks seed o1) (h2 : Directional m w us ks seed o2) : o1 = o2 := by
  obtain ⟨w1, e1⟩ := h1 0 (us.map fun _ => Arith.lit 0) (by simp)
  obtain ⟨w2, e2⟩ := h2 0 (us.map fun _ => Arith.lit 0) (by simp)
  have := e1.symm.trans e2
  simp only [Outcome.ret.injEq, Prod.mk.injEq, Out.reals.injEq, Option.some.injEq] at this
  exact this.2.2

theorem FMI3.Directional.unique {F D : Type} [Arith F] [HasInf F] {m : Model F D} {w : World F D} {us ks : List Nat} {seed o1 o2 : List F}
    (h1 : Directional m w us ks seed o1) (h2 : Directional m w us ks seed o2) : o1 = o2 := by
  obtain ⟨w1, e1⟩ := h1 0 (us.map fun _ => Arith.lit 0) (by simp)
  obtain ⟨w2, e2⟩ := h2 0 (us.map fun _ => Arith.lit 0) (by simp)
  have := e1.symm.trans e2
  simp only [Outcome.ret.injEq, Prod.mk.injEq, Out.reals.injEq, Option.some.injEq] at this
  exact this.2.2

theorem FMI3.Adjoint.unique {F D : Type} [Arith F] [HasInf F] {m : Model F D} {w : World F D} {us ks : List Nat} {seed o1 o2 : List F}
    (h1 : Adjoint m w us ks seed o1) (h2 : Adjoint m w us ks seed o2) : o1 = o2 := by
  obtain ⟨w1, e1⟩ := h1 0 (ks.map fun _ => Arith.lit 0) (by simp)
  obtain ⟨w2, e2⟩ := h2 0 (ks.map fun _ => Arith.lit 0) (by simp)
  have := e1.symm.trans e2
  simp only [Outcome.ret.injEq, Prod.mk.injEq, Out.reals.injEq, Option.some.injEq] at this
  exact this.2.2

theorem map_fin_inj {a b : List Rat} (h : a.map XRat.fin = b.map XRat.fin) : a = b :=
  (List.map_inj_right fun _ _ h => XRat.fin.inj h).1 h

end Verif
