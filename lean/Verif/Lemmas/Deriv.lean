import Verif.Spec.Derivative
import Verif.Lemmas.HeldRef
import Mathlib.Tactic.Ring
import Mathlib.Tactic.Linarith
import Mathlib.Algebra.Order.Ring.Abs

/-! # Lemmas for C33 to C35: the loops of the derivative functions -/

set_option linter.unusedSectionVars false

namespace Verif
variable {F D : Type} [Arith F] [HasInf F] {m : Model F D}

/-- `J ctx d u k` is the partial derivative of `u` with respect to `k`. -/
structure Model.Partial (m : Model F D) (J : Ctx F → D → Nat → Nat → F) : Prop where
  get : ∀ ctx mv u k, ∃ mv', m.getPartialDerivative ctx mv u k (Arith.lit 0) = .ret (mv', .OK, J ctx mv.data u k) ∧
    J ctx mv'.data = J ctx mv.data

/-- `a + f j * s j + … + f (j + n - 1) * s (j + n - 1)`, from left to right. -/
def accu (f s : Nat → F) : Nat → Nat → F → F
  | 0, _, a => a
  | n + 1, j, a => accu f s n (j + 1) (a +. f j *. s j)

theorem derivInner_eq {J : Ctx F → D → Nat → Nat → F} (hJ : m.Partial J) {pair : Nat → Outcome (Nat × Nat)} {seed : Ptr F} {p : Nat → Nat × Nat}
    {s : Nat → F} {N : Nat} (hp : ∀ j < N, pair j = .ret (p j)) (hs : ∀ j < N, seed.read j = .ret (s j)) (n j : Nat) (h : j + n = N)
    (c : Comp F D) (a : F) :
    ∃ mv', derivInner m pair seed n j c .OK a = .ret ({ c with mv := mv' }, .OK, accu (fun j => J c.ctx c.mv.data (p j).1 (p j).2) s n j a) ∧
      J c.ctx mv'.data = J c.ctx c.mv.data := by
  induction n generalizing j c a with
  | zero => exact ⟨c.mv, rfl, rfl⟩
  | succ n ih =>
    obtain ⟨mv', e, hq⟩ := hJ.get c.ctx c.mv (p j).1 (p j).2
    obtain ⟨mv'', e', hq'⟩ := ih (j + 1) (by omega) { c with mv := mv' } (a +. J c.ctx c.mv.data (p j).1 (p j).2 *. s j)
    refine ⟨mv'', ?_, hq'.trans hq⟩
    simp only [derivInner, hp j (by omega), Outcome.ret_bind, Comp.lift, e, call_OK, hs j (by omega)]
    simp only [hq] at e'
    exact e'

theorem derivOuter_eq {J : Ctx F → D → Nat → Nat → F} (hJ : m.Partial J) {pair : Nat → Nat → Outcome (Nat × Nat)} {seed : Ptr F}
    {p : Nat → Nat → Nat × Nat} {s : Nat → F} {M N : Nat} (hp : ∀ i < M, ∀ j < N, pair i j = .ret (p i j))
    (hs : ∀ j < N, seed.read j = .ret (s j)) (n i : Nat) (h : i + n = M) (c : Comp F D) (out : List F) (ho : out.length = M) :
    ∃ mv', derivOuter m pair seed N n i c .OK (some out) = .ret ({ c with mv := mv' }, .OK, some (out.take i ++
      (List.range' i n).map fun i => accu (fun j => J c.ctx c.mv.data (p i j).1 (p i j).2) s N 0 (Arith.lit 0))) ∧
      J c.ctx mv'.data = J c.ctx c.mv.data := by
  induction n generalizing i c out with
  | zero => exact ⟨c.mv, by simp [derivOuter, List.take_of_length_le (show out.length ≤ i by omega)], rfl⟩
  | succ n ih =>
    have hi : i < out.length := by omega
    obtain ⟨mv', e, hq⟩ := derivInner_eq hJ (pair := pair i) (p := p i) (fun j hj => hp i (by omega) j hj) hs N 0 (by omega) c (Arith.lit 0)
    obtain ⟨mv'', e', hq'⟩ := ih (i + 1) (by omega) { c with mv := mv' }
      (out.set i (accu (fun j => J c.ctx c.mv.data (p i j).1 (p i j).2) s N 0 (Arith.lit 0))) (by simpa using ho)
    refine ⟨mv'', ?_, hq'.trans hq⟩
    simp only [derivOuter, Ptr.write, if_pos hi, Outcome.ret_bind, e, List.length_set, List.set_set]
    rw [if_neg (by simp), e']
    simp only [hq]
    refine congrArg Outcome.ret (congrArg _ (congrArg _ (congrArg some ?_)))
    rw [List.range'_succ, List.map_cons, List.take_succ_eq_append_getElem (by simpa using hi), List.take_set_of_le (Nat.le_refl i)]
    simp

theorem vanDerPol_partial : (VanDerPol.model (F := F)).Partial fun ctx d u k =>
    if u = 2 && k = 1 then Arith.lit 0 else if u = 2 && k = 3 then Arith.lit 1
    else if u = 4 && k = 1 then Arith.lit (-2) *. d.x0 *. d.x1 *. d.mu -. Arith.lit 1
    else if u = 4 && k = 3 then d.mu *. (Arith.lit 1 -. d.x0 *. d.x0)
    else if u = 4 && k = 5 && ctx.state = .initializationMode then (Arith.lit 1 -. d.x0 *. d.x0) *. d.x1 else Arith.lit 0 :=
  ⟨fun ctx mv u k => ⟨mv, rfl, rfl⟩⟩

theorem roberts_partial : (Roberts.model (F := F)).Partial fun _ d u k =>
    if u = 3 && k = 2 then Arith.neg Roberts.k1 else if u = 3 && k = 4 then Roberts.k2 *. Lens.robertsY3 d
    else if u = 3 && k = 6 then Roberts.k2 *. d.y2 else if u = 5 && k = 2 then Roberts.k1
    else if u = 5 && k = 4 then Arith.neg Roberts.k2 *. Lens.robertsY3 d -. Arith.lit 60000000 *. d.y2
    else if u = 5 && k = 6 then Arith.neg Roberts.k2 *. d.y2
    else if u = 8 && k = 2 then Arith.lit 1 else if u = 8 && k = 4 then Arith.lit 1 else if u = 8 && k = 6 then Arith.lit 1
    else Arith.lit 0 := by
  refine ⟨fun ctx mv u k => ⟨Roberts.calcValues mv, ?_, ?_⟩⟩
  · obtain ⟨h1, h2, h3, h4⟩ := Lens.roberts_calc mv
    have h5 := Lens.robertsY3_calc mv
    show Roberts.getPartialDerivative ctx mv u k (Arith.lit 0) = _
    simp only [Roberts.getPartialDerivative, h5, h3]
  · obtain ⟨h1, h2, h3, h4⟩ := Lens.roberts_calc mv
    have h5 : Lens.robertsY3 (Roberts.calcValues mv).data = Lens.robertsY3 mv.data := by
      have := Lens.robertsY3_calc mv
      unfold Lens.robertsY3 at this ⊢
      rw [h1, h2, h3]
      split
      · next h => rw [this, if_pos h]
      · rfl
    simp only [h5, h3]

/-! ### Finite values -/

theorem accu_fin {f s : Nat → XRat} {f' s' : Nat → Rat} (n j : Nat) (hf : ∀ i < j + n, f i = .fin (f' i)) (hs : ∀ i < j + n, s i = .fin (s' i))
    (a : Rat) : accu f s n j (.fin a) = .fin (a + ((List.range' j n).map fun i => f' i * s' i).sum) := by
  induction n generalizing j a with
  | zero => simp [accu]
  | succ n ih =>
    simp only [accu, hf j (by omega), hs j (by omega), XRat.mul_fin, XRat.add_fin]
    rw [ih (j + 1) (fun i hi => hf i (by omega)) (fun i hi => hs i (by omega)), List.range'_succ, List.map_cons, List.sum_cons, ← add_assoc]

theorem sum_eq_dot (l : List Nat) (J : Nat → Rat) (seed : List Rat) (h : seed.length = l.length) :
    ((List.range' 0 l.length).map fun i => J (l.getD i 0) * seed.getD i 0).sum = dot (l.map J) seed := by
  induction l generalizing seed with
  | nil => simp [dot]
  | cons a l ih =>
    match seed, h with
    | b :: seed, h =>
      simp only [List.length_cons, List.range'_succ, List.map_cons, List.sum_cons, List.getD_cons_zero, dot]
      rw [← ih seed (by simpa using h)]
      congr 1
      rw [Nat.zero_add, List.range'_eq_map_range, List.range'_eq_map_range, List.map_map, List.map_map]
      congr 2
      funext i
      simp [Nat.add_comm]

theorem derivs_fin {D : Type} {m : Model XRat D} {J : Ctx XRat → D → Nat → Nat → XRat} (hJ : m.Partial J) (c : Comp XRat D) {J' : Nat → Nat → Rat}
    (us ks : List Nat) (hf : ∀ u k, J c.ctx c.mv.data u k = .fin (J' u k)) (seed : List Rat) (hl : seed.length = ks.length)
    (buf : List XRat) (hb : buf.length = us.length) :
    ∃ mv', derivOuter m (fun i j => Ptr.read (some us) i >>- fun u => Ptr.read (some ks) j >>- fun k => .ret (u, k)) (some (seed.map .fin))
      ks.length us.length 0 c .OK (some buf) = .ret ({ c with mv := mv' }, .OK, some (us.map fun u => .fin (dot (ks.map (J' u)) seed))) ∧
      J c.ctx mv'.data = J c.ctx c.mv.data := by
  obtain ⟨mv', e, hq⟩ := derivOuter_eq (M := us.length) (N := ks.length) hJ
    (pair := fun i j => Ptr.read (some us) i >>- fun u => Ptr.read (some ks) j >>- fun k => .ret (u, k))
    (seed := some (seed.map .fin)) (p := fun i j => (us.getD i 0, ks.getD j 0)) (s := fun j => .fin (seed.getD j 0))
    (by intro i hi j hj; simp [Ptr.read, List.getElem?_eq_getElem hi, List.getElem?_eq_getElem hj])
    (by intro j hj; simp [Ptr.read, List.getElem?_eq_getElem (show j < seed.length by omega)])
    us.length 0 (by omega) c buf hb
  refine ⟨mv', e.trans ?_, hq⟩
  congr 4
  rw [List.take_zero, List.nil_append]
  have : us = (List.range' 0 us.length).map fun i => us.getD i 0 := by
    refine List.ext_getElem (by simp) fun i h1 h2 => ?_
    simp [List.getElem?_eq_getElem h1]
  conv => rhs; rw [this]
  rw [List.map_map]
  refine List.map_congr_left fun i hi => ?_
  rw [XRat.lit_eq, accu_fin (f' := fun j => J' (us.getD i 0) (ks.getD j 0)) (s' := fun j => seed.getD j 0) _ _ (fun _ _ => hf _ _) (fun _ _ => rfl),
    sum_eq_dot ks (J' (us.getD i 0)) seed hl, zero_add]
  rfl

theorem adjoint_fin {D : Type} {m : Model XRat D} {J : Ctx XRat → D → Nat → Nat → XRat} (hJ : m.Partial J) (c : Comp XRat D) {J' : Nat → Nat → Rat}
    (us ks : List Nat) (hf : ∀ u k, J c.ctx c.mv.data u k = .fin (J' u k)) (seed : List Rat) (hl : seed.length = us.length)
    (buf : List XRat) (hb : buf.length = ks.length) :
    ∃ mv', derivOuter m (fun i j => Ptr.read (some us) j >>- fun u => Ptr.read (some ks) i >>- fun k => .ret (u, k)) (some (seed.map .fin))
      us.length ks.length 0 c .OK (some buf) =
        .ret ({ c with mv := mv' }, .OK, some (ks.map fun k => .fin (dot (us.map fun u => J' u k) seed))) ∧
      J c.ctx mv'.data = J c.ctx c.mv.data := by
  obtain ⟨mv', e, hq⟩ := derivOuter_eq (M := ks.length) (N := us.length) hJ
    (pair := fun i j => Ptr.read (some us) j >>- fun u => Ptr.read (some ks) i >>- fun k => .ret (u, k))
    (seed := some (seed.map .fin)) (p := fun i j => (us.getD j 0, ks.getD i 0)) (s := fun j => .fin (seed.getD j 0))
    (by intro i hi j hj; simp [Ptr.read, List.getElem?_eq_getElem hi, List.getElem?_eq_getElem hj])
    (by intro j hj; simp [Ptr.read, List.getElem?_eq_getElem (show j < seed.length by omega)])
    ks.length 0 (by omega) c buf hb
  refine ⟨mv', e.trans ?_, hq⟩
  congr 4
  rw [List.take_zero, List.nil_append]
  have : ks = (List.range' 0 ks.length).map fun i => ks.getD i 0 := by
    refine List.ext_getElem (by simp) fun i h1 h2 => ?_
    simp [List.getElem?_eq_getElem h1]
  conv => rhs; rw [this]
  rw [List.map_map]
  refine List.map_congr_left fun i hi => ?_
  rw [XRat.lit_eq, accu_fin (f' := fun j => J' (us.getD j 0) (ks.getD i 0)) (s' := fun j => seed.getD j 0) _ _ (fun _ _ => hf _ _) (fun _ _ => rfl),
    sum_eq_dot us (fun u => J' u (ks.getD i 0)) seed hl, zero_add]
  rfl

/-! ### Linear algebra -/

theorem dot_comm (a b : List Rat) : dot a b = dot b a := by
  induction a generalizing b with
  | nil => cases b <;> rfl
  | cons x a ih => cases b with
    | nil => rfl
    | cons y b => simp only [dot, ih b, mul_comm]

theorem dot_add (a b c : List Rat) (h : b.length = c.length) : dot a (List.zipWith (· + ·) b c) = dot a b + dot a c := by
  induction a generalizing b c with
  | nil => simp [dot]
  | cons x a ih =>
    match b, c, h with
    | [], [], _ => simp [dot]
    | y :: b, z :: c, h => simp only [List.zipWith_cons_cons, dot, ih b c (by simpa using h)]; ring

theorem dot_smul (a : List Rat) (q : Rat) (b : List Rat) : dot a (b.map (q * ·)) = q * dot a b := by
  induction a generalizing b with
  | nil => simp [dot]
  | cons x a ih => cases b with
    | nil => simp [dot]
    | cons y b => simp only [List.map_cons, dot, ih]; ring

theorem dot_zero (a b : List Rat) (h : ∀ x ∈ a, x = 0) : dot a b = 0 := by
  induction a generalizing b with
  | nil => cases b <;> rfl
  | cons x a ih => cases b with
    | nil => rfl
    | cons y b => simp only [dot, ih b fun z hz => h z (by simp [hz]), h x (by simp)]; ring

theorem dot_adjoint (J : Nat → Nat → Rat) (us ks : List Nat) (a b : List Rat) (ha : a.length = us.length) (hb : b.length = ks.length) :
    dot a (us.map fun u => dot (ks.map (J u)) b) = dot (ks.map fun k => dot (us.map fun u => J u k) a) b := by
  induction us generalizing a with
  | nil =>
    obtain rfl := List.eq_nil_of_length_eq_zero ha
    rw [dot_zero (ks.map _) b (by intro x hx; obtain ⟨k, -, rfl⟩ := List.mem_map.1 hx; rfl)]
    rfl
  | cons u us ih =>
    match a, ha with
    | x :: a, ha =>
      simp only [List.map_cons, dot]
      rw [ih a (by simpa using ha)]
      clear ih ha
      induction ks generalizing b with
      | nil => simp [dot]
      | cons k ks ih2 =>
        match b, hb with
        | y :: b, hb =>
          simp only [List.map_cons, dot]
          have := ih2 b (by simpa using hb)
          linarith

theorem dot_seedOf (J : Nat → Rat) {R : List Nat} (hR : R.Nodup) (ks : List Nat) (seed : List Rat) (h : ∀ k ∈ ks, k ∉ R → J k = 0)
    (hl : seed.length = ks.length) : dot (ks.map J) seed = (R.map fun r => J r * seedOf r ks seed).sum := by
  induction ks generalizing seed with
  | nil =>
    simp only [List.map_nil, dot, seedOf, mul_zero]
    induction R with
    | nil => rfl
    | cons r R ih => simp [← ih (List.nodup_cons.1 hR).2 (by simp)]
  | cons k ks ih =>
    match seed, hl with
    | s :: seed, hl =>
      simp only [List.map_cons, dot, seedOf]
      rw [ih seed (fun k' hk' => h k' (by simp [hk'])) (by simpa using hl)]
      have key : (R.map fun r => J r * (if k = r then s else 0)).sum = J k * s := by
        have h0 := h k (by simp)
        clear h ih hl
        induction R with
        | nil => simp [h0 (by simp)]
        | cons r R ih =>
          have hn := List.nodup_cons.1 hR
          by_cases hk : k = r
          · subst hk
            have : (R.map fun r => J r * (if k = r then s else 0)).sum = 0 := by
              have : (R.map fun r => J r * (if k = r then s else 0)) = R.map fun _ => 0 :=
                List.map_congr_left fun r hr => by rw [if_neg (by rintro rfl; exact hn.1 hr), mul_zero]
              rw [this]
              clear this ih hn h0 hR
              induction R with
              | nil => rfl
              | cons _ R ih' => simpa using ih'
            rw [List.map_cons, List.sum_cons, this]; simp
          · rw [List.map_cons, List.sum_cons, if_neg hk, ih hn.2 (fun hm => h0 (by simp [hk, hm]))]; ring
      rw [← key]
      clear key ih h hR
      induction R with
      | nil => simp
      | cons r R ih => simp only [List.map_cons, List.sum_cons]; linarith

/-! ### Derivatives of polynomials -/

theorem IsDerivative.poly {f : Rat → Rat} {a : Rat} (p q r : Rat) (h : ∀ s, f s = f 0 + s * a + s * s * (p + q * s + r * (s * s))) :
    IsDerivative f a := by
  intro ε hε
  have hK : 0 < |p| + |q| + |r| + 1 := by
    have := abs_nonneg p; have := abs_nonneg q; have := abs_nonneg r; linarith
  refine ⟨min 1 (ε / (|p| + |q| + |r| + 1)), lt_min one_pos (div_pos hε hK), fun s hs => ?_⟩
  have h1 : |s| < 1 := lt_of_lt_of_le hs (min_le_left _ _)
  have h2 : |s| < ε / (|p| + |q| + |r| + 1) := lt_of_lt_of_le hs (min_le_right _ _)
  have e : f s - f 0 - s * a = s * (s * (p + q * s + r * (s * s))) := by rw [h s]; ring
  rw [e, abs_mul, abs_mul, mul_comm ε]
  refine mul_le_mul_of_nonneg_left ?_ (abs_nonneg s)
  have h3 : |p + q * s + r * (s * s)| ≤ |p| + |q| + |r| + 1 := by
    have t1 := abs_add_le (p + q * s) (r * (s * s))
    have t2 := abs_add_le p (q * s)
    have hs0 := abs_nonneg s
    have t3 : |q * s| ≤ |q| := by rw [abs_mul]; exact mul_le_of_le_one_right (abs_nonneg q) h1.le
    have t4 : |r * (s * s)| ≤ |r| := by
      rw [abs_mul, abs_mul]
      exact mul_le_of_le_one_right (abs_nonneg r) (mul_le_one₀ h1.le hs0 h1.le)
    linarith
  have h4 : |s| * (|p| + |q| + |r| + 1) ≤ ε := by
    rw [lt_div_iff₀ hK] at h2; exact h2.le
  exact (mul_le_mul_of_nonneg_left h3 (abs_nonneg s)).trans h4

theorem IsDerivative.unique {f : Rat → Rat} {a b : Rat} (ha : IsDerivative f a) (hb : IsDerivative f b) : a = b := by
  by_contra hne
  have hd : 0 < |a - b| := abs_pos.2 (sub_ne_zero.2 hne)
  obtain ⟨δ, hδ, h1⟩ := ha (|a - b| / 4) (by linarith)
  obtain ⟨δ', hδ', h2⟩ := hb (|a - b| / 4) (by linarith)
  have hs : 0 < min δ δ' / 2 := by have := lt_min hδ hδ'; linarith
  have hs1 : |min δ δ' / 2| < δ := by rw [abs_of_pos hs]; have := min_le_left δ δ'; linarith
  have hs2 : |min δ δ' / 2| < δ' := by rw [abs_of_pos hs]; have := min_le_right δ δ'; linarith
  have e1 := h1 _ hs1
  have e2 := h2 _ hs2
  generalize min δ δ' / 2 = s at *
  have e3 : s * (a - b) = (f s - f 0 - s * b) - (f s - f 0 - s * a) := by ring
  have e4 : |s| * |a - b| ≤ |f s - f 0 - s * b| + |f s - f 0 - s * a| := by rw [← abs_mul, e3]; exact abs_sub _ _
  have hs' : 0 < |s| := abs_pos.2 hs.ne'
  have : 0 < |s| * |a - b| := mul_pos hs' hd
  linarith

end Verif
