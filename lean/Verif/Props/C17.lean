import Verif.Spec.Equations
import Verif.Lemmas.HeldRef
import Verif.Props.C48
import Verif.Examples

/-!
# C17: values read are never stale

`Equation m t r f` lists the defining equations of the FMUs, `Continuous m xs ders z` the continuous
states, their derivatives and the event indicators (Spec/Equations.lean). `Reported m w v` says that `v`
holds the values the getters report. The theorems hold for every instance state, reachable or not, so in
particular after any history. For the equations of StateSpace see C37.
-/

set_option linter.unusedSectionVars false

namespace Verif
variable {F D : Type} [Arith F] [HasInf F] {m : Model F D} {t : VType} {r : Nat} {f : Values F → t.Val F}

theorem Equation.lens (h : Equation m t r f) : ∃ (R : List (VType × Nat)) (l : Lens m R), (t, r) ∈ R ∧
    ∀ τ d v, (∀ t' r', (t', r') ∈ R → FMI2.hasType t' ∨ t' = t → v t' r' = l.val t' r' τ d) → l.val t r τ d = f v := by
  cases h with
  | bouncingBall_der_h => exact ⟨_, .bouncingBall, by simp, fun τ d v h => by
      have h1 := h .float64 3 (by simp) (.inr rfl); simp only [h1]; rfl⟩
  | bouncingBall_der_v => exact ⟨_, .bouncingBall, by simp, fun τ d v h => by
      have h1 := h .float64 5 (by simp) (.inr rfl); simp only [h1]; rfl⟩
  | dahlquist_der_x => exact ⟨_, .dahlquist, by simp, fun τ d v h => by
      have h1 := h .float64 1 (by simp) (.inr rfl); have h2 := h .float64 3 (by simp) (.inr rfl); simp only [h1, h2]; rfl⟩
  | vanDerPol_der_x0 => exact ⟨_, .vanDerPol, by simp, fun τ d v h => by
      have h1 := h .float64 3 (by simp) (.inr rfl); simp only [h1]; rfl⟩
  | vanDerPol_der_x1 => exact ⟨_, .vanDerPol, by simp, fun τ d v h => by
      have h1 := h .float64 1 (by simp) (.inr rfl); have h2 := h .float64 3 (by simp) (.inr rfl)
      have h3 := h .float64 5 (by simp) (.inr rfl); simp only [h1, h2, h3]; rfl⟩
  | roberts_der_y1 => exact ⟨_, .roberts, by simp, fun τ d v h => by
      have h1 := h .float64 2 (by simp) (.inr rfl); have h2 := h .float64 4 (by simp) (.inr rfl)
      have h3 := h .float64 6 (by simp) (.inr rfl); simp only [h1, h2, h3]; rfl⟩
  | roberts_der_y2 => exact ⟨_, .roberts, by simp, fun τ d v h => by
      have h1 := h .float64 2 (by simp) (.inr rfl); have h2 := h .float64 4 (by simp) (.inr rfl)
      have h3 := h .float64 6 (by simp) (.inr rfl); simp only [h1, h2, h3]; rfl⟩
  | roberts_y3 => exact ⟨_, .roberts, by simp, fun τ d v h => by
      have h1 := h .float64 2 (by simp) (.inr rfl); have h2 := h .float64 4 (by simp) (.inr rfl)
      have h3 := h .float64 6 (by simp) (.inr rfl); have h4 := h .boolean 1 (by simp) (.inl (by simp [FMI2.hasType]))
      simp only [h1, h2, h3, h4]
      show Lens.robertsY3 d = if d.dae = true then Lens.robertsY3 d else _
      split
      · rfl
      · next h => unfold Lens.robertsY3; rw [if_neg h]; rfl⟩
  | roberts_r => exact ⟨_, .roberts, by simp, fun τ d v h => by
      have h1 := h .float64 2 (by simp) (.inr rfl); have h2 := h .float64 4 (by simp) (.inr rfl)
      have h3 := h .float64 6 (by simp) (.inr rfl); simp only [h1, h2, h3]; rfl⟩
  | feedthrough hp =>
    obtain ⟨H, R, l, hi, ho, h1, h2⟩ := hp.lens
    exact ⟨R, l, ho, fun τ d v h => by
      show _ = v t _
      rw [h2, h _ _ hi (.inr rfl), h1]⟩

theorem mem_zip_map {α β : Type} {g : α → β} {rs : List α} {x : α × β} (h : x ∈ rs.zip (rs.map g)) : x.1 ∈ rs ∧ x.2 = g x.1 := by
  induction rs with
  | nil => simp at h
  | cons r rs ih =>
    simp only [List.map_cons, List.zip_cons_cons, List.mem_cons] at h
    rcases h with rfl | h
    · exact ⟨.head _, rfl⟩
    · exact ⟨.tail _ (ih h).1, (ih h).2⟩

/-- The lens describes the continuous states, derivatives and event indicators. -/
structure Lens.Cont {R : List (VType × Nat)} (l : Lens m R) (xs ders : List Nat) (z : Values F → List F) : Prop where
  mem : ∀ r, r ∈ xs ∨ r ∈ ders → (.float64, r) ∈ R
  states : ∀ ctx mv p, p.length = xs.length → ∃ mv', m.getContinuousStates ctx mv (some p) xs.length =
    .ret (mv', .OK, some (xs.map fun r => l.val .float64 r ctx.time mv.data))
  derivs : ∀ ctx mv p, p.length = ders.length → ∃ mv', m.getDerivatives ctx mv (some p) ders.length =
    .ret (mv', .OK, some (ders.map fun r => l.val .float64 r ctx.time mv.data))
  inds : ∀ ctx mv p v, (∀ r, (.float64, r) ∈ R → v .float64 r = l.val .float64 r ctx.time mv.data) → p.length = (z v).length →
    ∃ mv', m.getEventIndicators ctx mv (some p) (z v).length = .ret (mv', .OK, some (z v))

theorem Continuous.lens {xs ders : List Nat} {z : Values F → List F} (h : Continuous m xs ders z) :
    ∃ (R : List (VType × Nat)) (l : Lens m R), l.Cont xs ders z := by
  have two : ∀ p : List F, p.length = 2 → ∃ a b, p = [a, b] := by
    intro p hp
    match p, hp with
    | [a, b], _ => exact ⟨a, b, rfl⟩
  have one : ∀ p : List F, p.length = 1 → ∃ a, p = [a] := by
    intro p hp
    match p, hp with
    | [a], _ => exact ⟨a, rfl⟩
  cases h with
  | bouncingBall =>
    refine ⟨_, .bouncingBall, by simp only [List.mem_cons, List.not_mem_nil, or_false, Prod.mk.injEq, true_and, reduceCtorEq, false_and]; omega, ?_, ?_, ?_⟩
    · intro ctx mv p hp; obtain ⟨a, b, rfl⟩ := two p hp; exact ⟨_, rfl⟩
    · intro ctx mv p hp; obtain ⟨a, b, rfl⟩ := two p hp; exact ⟨_, rfl⟩
    · intro ctx mv p v hv hp
      obtain ⟨a, rfl⟩ := one p hp
      have h1 := hv 1 (by simp)
      have h3 := hv 3 (by simp)
      simp only [h1, h3]
      exact ⟨_, rfl⟩
  | dahlquist =>
    refine ⟨_, .dahlquist, by simp only [List.mem_cons, List.not_mem_nil, or_false, Prod.mk.injEq, true_and, reduceCtorEq, false_and]; omega, ?_, ?_, ?_⟩
    · intro ctx mv p hp; obtain ⟨a, rfl⟩ := one p hp; exact ⟨_, rfl⟩
    · intro ctx mv p hp; obtain ⟨a, rfl⟩ := one p hp; exact ⟨_, rfl⟩
    · intro ctx mv p v hv hp
      obtain rfl := List.eq_nil_of_length_eq_zero hp
      exact ⟨_, rfl⟩
  | vanDerPol =>
    refine ⟨_, .vanDerPol, by simp only [List.mem_cons, List.not_mem_nil, or_false, Prod.mk.injEq, true_and, reduceCtorEq, false_and]; omega, ?_, ?_, ?_⟩
    · intro ctx mv p hp; obtain ⟨a, b, rfl⟩ := two p hp; exact ⟨_, rfl⟩
    · intro ctx mv p hp; obtain ⟨a, b, rfl⟩ := two p hp; exact ⟨_, rfl⟩
    · intro ctx mv p v hv hp
      obtain rfl := List.eq_nil_of_length_eq_zero hp
      exact ⟨_, rfl⟩
  | roberts =>
    refine ⟨_, .roberts, by simp only [List.mem_cons, List.not_mem_nil, or_false, Prod.mk.injEq, true_and, reduceCtorEq, false_and]; omega, ?_, ?_, ?_⟩
    · intro ctx mv p hp; obtain ⟨a, b, rfl⟩ := two p hp; exact ⟨_, rfl⟩
    · intro ctx mv p hp
      obtain ⟨a, b, rfl⟩ := two p hp
      obtain ⟨-, -, -, -, -, h1, h2, -⟩ := Lens.roberts_calc mv
      refine ⟨Roberts.calcValues mv, ?_⟩
      have : (Roberts.model (F := F)).getDerivatives ctx mv (some [a, b]) [3, 5].length =
        .ret (Roberts.calcValues mv, .OK, some [(Roberts.calcValues mv).data.der_y1, (Roberts.calcValues mv).data.der_y2]) := rfl
      rw [this, h1, h2]; rfl
    · intro ctx mv p v hv hp
      obtain ⟨a, b, rfl⟩ := two p hp
      have h1 := hv 2 (by simp)
      have h3 := hv 6 (by simp)
      simp only [h1, h3]
      refine ⟨Roberts.calcValues mv, ?_⟩
      have : (Roberts.model (F := F)).getEventIndicators ctx mv (some [a, b]) 2 =
        .ret (Roberts.calcValues mv, .OK, some [mv.data.y1 -. Arith.lit (1 / 10000), (Roberts.calcValues mv).data.y3 -. Arith.lit (1 / 100)]) := rfl
      refine this.trans ?_
      rw [Lens.robertsY3_calc]; rfl

namespace FMI2

/-- **C17**, FMI 2.0: every dependent variable that can be read satisfies its defining equation with the
values that the getters report at that moment. -/
theorem C17_fmi2_partial (hE : Equation m t r f) {w : World F D} {v : Values F} (hv : Reported m w v) {u : t.Val F}
    (h : Reads m w t r u) : u = f v := by
  obtain ⟨R, l, hR, hl⟩ := hE.lens
  rw [h.unique (reads_lens l hR h.hasType h.allowed)]
  refine hl _ _ v fun t' r' h' ht' => hv _ _ _ (reads_lens l h' ?_ h.allowed)
  rcases ht' with ht' | rfl
  · exact ht'
  · exact h.hasType

/-- **C17**, FMI 2.0: the vectors of states, derivatives and event indicators agree with the values of the
variables. -/
theorem C17_fmi2_vectors {xs ders : List Nat} {z : Values F → List F} (hC : Continuous m xs ders z) {w : World F D} (fuel : Nat) :
    (∀ p, p.length = xs.length → w.inst.ctx.state ∈ Spec.allowedIn .getContinuousStates →
      ∃ w' vs, step m fuel w (.getContinuousStates (some p) xs.length) = .ret (w', .OK, .reals (some vs)) ∧
        vs.length = xs.length ∧ ∀ x ∈ xs.zip vs, Reads m w .float64 x.1 x.2) ∧
    (∀ p, p.length = ders.length → w.inst.ctx.state ∈ Spec.allowedIn .getDerivatives →
      ∃ w' vs, step m fuel w (.getDerivatives (some p) ders.length) = .ret (w', .OK, .reals (some vs)) ∧
        vs.length = ders.length ∧ ∀ x ∈ ders.zip vs, Reads m w .float64 x.1 x.2) ∧
    (∀ p v, Reported m w v → p.length = (z v).length → w.inst.ctx.state ∈ Spec.allowedIn .getEventIndicators →
      ∃ w', step m fuel w (.getEventIndicators (some p) (z v).length) = .ret (w', .OK, .reals (some (z v)))) := by
  obtain ⟨R, l, hl⟩ := hC.lens
  have sub : ∀ {fn : Fn}, fn = .getContinuousStates ∨ fn = .getDerivatives ∨ fn = .getEventIndicators →
      w.inst.ctx.state ∈ Spec.allowedIn fn → w.inst.ctx.state ∈ Spec.allowedIn .getReal := by
    intro fn hfn h
    rcases hfn with rfl | rfl | rfl <;> revert h <;> cases w.inst.ctx.state <;> decide
  have all : ∀ rs : List Nat, (∀ r ∈ rs, (VType.float64, r) ∈ R) → w.inst.ctx.state ∈ Spec.allowedIn .getReal →
      ∀ x ∈ rs.zip (rs.map fun r => l.val .float64 r w.inst.ctx.time w.inst.mv.data), Reads m w .float64 x.1 x.2 :=
    fun rs h hs x hx => by obtain ⟨hx, e⟩ := mem_zip_map hx; rw [e]; exact reads_lens l (h _ hx) (.inl rfl) hs
  refine ⟨fun p hp hs => ?_, fun p hp hs => ?_, fun p v hv hp hs => ?_⟩
  · obtain ⟨mv', e⟩ := hl.states w.inst.ctx w.inst.mv p hp
    have ha := (allowed_fn w.inst.ctx .getContinuousStates).2 hs
    exact ⟨_, _, by simp only [step, getContinuousStates, World.run]; rw [begin_ok (mask := MASK_GetEventIndicators) ha, lift_ok e]; rfl,
      by simp, all xs (fun r hr => hl.mem r (.inl hr)) (sub (by simp) hs)⟩
  · obtain ⟨mv', e⟩ := hl.derivs w.inst.ctx w.inst.mv p hp
    have ha := (allowed_fn w.inst.ctx .getDerivatives).2 hs
    exact ⟨_, _, by simp only [step, getDerivatives, World.run]; rw [begin_ok (mask := MASK_GetDerivatives) ha, lift_ok e]; rfl,
      by simp, all ders (fun r hr => hl.mem r (.inr hr)) (sub (by simp) hs)⟩
  · obtain ⟨mv', e⟩ := hl.inds w.inst.ctx w.inst.mv p v
      (fun r hr => hv _ _ _ (reads_lens l hr (.inl rfl) (sub (by simp) hs))) hp
    have ha := (allowed_fn w.inst.ctx .getEventIndicators).2 hs
    exact ⟨_, by simp only [step, getEventIndicators, World.run]; rw [begin_ok (mask := MASK_GetEventIndicators) ha, lift_ok e]; rfl⟩

/-- Non-vacuity: in Model Exchange the states of VanDerPol are set; the derivatives follow at once, in the
variables and in the vector. -/
example : (Ex.run2 VanDerPol.model .modelExchange (Ex.init2 ++
    [.enterContinuousTimeMode, .setContinuousStates (some [.fin 3, .fin 2]) 2, .getReal (some [1, 2, 3, 4, 5]) 5
      (some [.fin 0, .fin 0, .fin 0, .fin 0, .fin 0]), .getDerivatives (some [.fin 0, .fin 0]) 2])).is (fun x =>
      x.2.drop 5 == [(.OK, .reals (some [.fin 3, .fin 2, .fin 2, .fin (-19), .fin 1])),
        (.OK, .reals (some [.fin 2, .fin (-19)]))]) = true := by
  decide +kernel

end FMI2

namespace FMI3

/-- **C17**, FMI 3.0: every dependent variable that can be read satisfies its defining equation with the
values that the getters report at that moment. -/
theorem C17_fmi3_partial (hE : Equation m t r f) {w : World F D} {v : Values F} (hv : Reported m w v) {u : t.Val F}
    (h : Reads m w t r u) : u = f v := by
  obtain ⟨R, l, hR, hl⟩ := hE.lens
  rw [h.unique (reads_lens l hR h.allowed)]
  exact hl _ _ v fun t' r' h' _ => hv _ _ _ (reads_lens l h' h.allowed)

/-- **C17**, FMI 3.0: the vectors of states, derivatives and event indicators agree with the values of the
variables. -/
theorem C17_fmi3_vectors {xs ders : List Nat} {z : Values F → List F} (hC : Continuous m xs ders z) {w : World F D} (fuel : Nat) :
    (∀ p, p.length = xs.length → w.inst.ctx.state ∈ Spec.allowedIn .getContinuousStates →
      ∃ w' vs, step m fuel w (.getContinuousStates (some p) xs.length) = .ret (w', .OK, .reals (some vs)) ∧
        vs.length = xs.length ∧ ∀ x ∈ xs.zip vs, Reads m w .float64 x.1 x.2) ∧
    (∀ p, p.length = ders.length → w.inst.ctx.state ∈ Spec.allowedIn .getDerivatives →
      ∃ w' vs, step m fuel w (.getDerivatives (some p) ders.length) = .ret (w', .OK, .reals (some vs)) ∧
        vs.length = ders.length ∧ ∀ x ∈ ders.zip vs, Reads m w .float64 x.1 x.2) ∧
    (∀ p v, Reported m w v → p.length = (z v).length → w.inst.ctx.state ∈ Spec.allowedIn .getEventIndicators →
      ∃ w', step m fuel w (.getEventIndicators (some p) (z v).length) = .ret (w', .OK, .reals (some (z v)))) := by
  obtain ⟨R, l, hl⟩ := hC.lens
  have sub : ∀ {fn : Fn}, fn = .getContinuousStates ∨ fn = .getDerivatives ∨ fn = .getEventIndicators →
      w.inst.ctx.state ∈ Spec.allowedIn fn → w.inst.ctx.state ∈ Spec.allowedIn (.get .float64) := by
    intro fn hfn h
    rcases hfn with rfl | rfl | rfl <;> revert h <;> cases w.inst.ctx.state <;> decide
  have all : ∀ rs : List Nat, (∀ r ∈ rs, (VType.float64, r) ∈ R) → w.inst.ctx.state ∈ Spec.allowedIn (.get .float64) →
      ∀ x ∈ rs.zip (rs.map fun r => l.val .float64 r w.inst.ctx.time w.inst.mv.data), Reads m w .float64 x.1 x.2 :=
    fun rs h hs x hx => by obtain ⟨hx, e⟩ := mem_zip_map hx; rw [e]; exact reads_lens l (h _ hx) hs
  refine ⟨fun p hp hs => ?_, fun p hp hs => ?_, fun p v hv hp hs => ?_⟩
  · obtain ⟨mv', e⟩ := hl.states w.inst.ctx w.inst.mv p hp
    have ha := (allowed_fn w.inst.ctx .getContinuousStates).2 hs
    exact ⟨_, _, by simp only [step, getContinuousStates, World.run]; rw [begin_ok (mask := MASK_GetContinuousStateDerivatives) ha, Comp.lift, e]; rfl,
      by simp, all xs (fun r hr => hl.mem r (.inl hr)) (sub (by simp) hs)⟩
  · obtain ⟨mv', e⟩ := hl.derivs w.inst.ctx w.inst.mv p hp
    have ha := (allowed_fn w.inst.ctx .getDerivatives).2 hs
    exact ⟨_, _, by simp only [step, getDerivatives, World.run]; rw [begin_ok (mask := MASK_GetContinuousStateDerivatives) ha, Comp.lift, e]; rfl,
      by simp, all ders (fun r hr => hl.mem r (.inr hr)) (sub (by simp) hs)⟩
  · obtain ⟨mv', e⟩ := hl.inds w.inst.ctx w.inst.mv p v
      (fun r hr => hv _ _ _ (reads_lens l hr (sub (by simp) hs))) hp
    have ha := (allowed_fn w.inst.ctx .getEventIndicators).2 hs
    exact ⟨_, by simp only [step, getEventIndicators, World.run]; rw [begin_ok (mask := MASK_GetContinuousStateDerivatives) ha, Comp.lift, e]; rfl⟩

/-- Non-vacuity: Roberts, states set through the vector. -/
example : (Ex.runME3 Roberts.model (Ex.init3 ++
    [.enterContinuousTimeMode, .setContinuousStates (some [.fin (1/2), .fin (1/4)]) 2, .get .float64 (some [3, 5, 6, 8]) 4
      (some [.fin 0, .fin 0, .fin 0, .fin 0]) 4, .getDerivatives (some [.fin 0, .fin 0]) 2,
      .getEventIndicators (some [.fin 0, .fin 0]) 2])).is (fun x =>
      x.2.drop 4 == [(.OK, .values .float64 (some [.fin (624.98), .fin (-1875624.98), .fin (1/4), .fin 0])),
        (.OK, .reals (some [.fin (624.98), .fin (-1875624.98)])), (.OK, .reals (some [.fin (0.4999), .fin (0.24)]))]) = true := by
  decide +kernel

/-- The full claim fails: the description of Roberts declares the variables `g1` (9) and `g2` (10) as the
event indicators, but they are never calculated: they read as zero while `fmi3GetEventIndicators` gives
other values. -/
theorem C17_violated_roberts : (Ex.runME3 Roberts.model (Ex.init3 ++
    [.enterContinuousTimeMode, .getEventIndicators (some [.fin 0, .fin 0]) 2,
      .get .float64 (some [9, 10]) 2 (some [.fin 7, .fin 7]) 2])).is (fun x =>
      x.2.drop 3 == [(.OK, .reals (some [.fin (0.9999), .fin (-0.01)])), (.OK, .values .float64 (some [.fin 0, .fin 0]))]) = true := by
  decide +kernel

/-- The description of BouncingBall declares the variable `h` (1) as the event indicator (BouncingBall/FMI3.xml 71). When the ball leaves the
ground, `fmi3GetEventIndicators` gives a value that is not the one of `h`, and has another sign. -/
theorem C17_violated_bouncingBall : (Ex.runME3 BouncingBall.model (Ex.init3 ++
    [.enterContinuousTimeMode, .setContinuousStates (some [.fin 0, .fin 5]) 2, .getEventIndicators (some [.fin 7]) 1,
      .get .float64 (some [1]) 1 (some [.fin 7]) 1])).is (fun x =>
      x.2.drop 4 == [(.OK, .reals (some [.fin (-(1 / 10000000000))])), (.OK, .values .float64 (some [.fin 0]))]) = true := by
  decide +kernel

end FMI3
end Verif
