import Verif.Spec.Dependencies
import Verif.Lemmas.StartValues
import Verif.Lemmas.ExTwin
import Mathlib.Tactic.Ring
import Mathlib.Tactic.Linarith

/-!
# C70: the declared dependencies are complete

Two instances that report the same values for the declared dependencies of an unknown (and, after the initialisation, for the
parameters) report the same value for the unknown, whatever else they contain. Roberts declares no dependencies for its output
`y3`, which is wrong, and constant factors for non-linear derivatives in `fmi-ls-dae.xml`.
-/

set_option linter.unusedSectionVars false

namespace Verif
variable {F D : Type} [Arith F] [HasInf F] {m : Model F D} {R : List Var}

/-- The values of `vars` determine the one of `u`, if `given` holds. -/
def Lens.Determines (l : Lens m R) (given : List (Start F)) (u : Var) (vars : List Var) : Prop :=
  ∀ d d' τ τ', (∀ s ∈ given, l.val s.type s.vr τ d = s.value ∧ l.val s.type s.vr τ' d' = s.value) →
    (∀ p ∈ vars, l.val p.1 p.2 τ d = l.val p.1 p.2 τ' d') → l.val u.1 u.2 τ d = l.val u.1 u.2 τ' d'

/-- All dependencies are complete, and all variables exist. -/
structure Lens.Complete (l : Lens m R) (g : Dependencies F) : Prop where
  given : ∀ s ∈ g.given, (s.type, s.vr) ∈ R
  parameters : ∀ p ∈ g.parameters, p ∈ R
  initial : ∀ r ∈ g.initial, r.1 ∈ R ∧ (∀ p ∈ r.2, p ∈ R) ∧ l.Determines g.given r.1 r.2
  later : ∀ r ∈ g.later, r.1 ∈ R ∧ (∀ p ∈ r.2, p ∈ R) ∧ l.Determines g.given r.1 (r.2 ++ g.parameters)

/-- Prove `Lens.Complete`: go through the tables and use the equations. -/
macro "complete" t:ident l:ident : tactic => `(tactic| (
  refine ⟨by simp [$t:ident], by simp [$t:ident, real], ?_, ?_⟩ <;>
  · simp only [$t:ident, Feedthrough.pairs, List.forall_mem_cons, List.not_mem_nil, false_implies, implies_true, and_true, List.cons_append,
      List.nil_append, List.append_nil]
    repeat' with_reducible apply And.intro
    all_goals first
      | (intro d d' τ τ' hg h
         simp only [List.forall_mem_cons, List.not_mem_nil, false_implies, implies_true, and_true, real, $l:ident] at hg h ⊢
         first | exact h | (simp [h]; done) | (simp only [Lens.robertsY3, hg, h]; simp [h]; done) | simp [Lens.robertsY3, hg, h])
      | (simp [real]; done)))

/-- Prove `Lens.Complete` for pairs of an input and an output. -/
macro "pairs" n:num : tactic => `(tactic| (
  refine ⟨fun _ h => (List.not_mem_nil h).elim, fun _ h => (List.not_mem_nil h).elim, ?_, ?_⟩ <;>
  · simp only [Feedthrough.dependencies2, Feedthrough.dependencies3, Feedthrough.pairs]
    iterate $n
      refine List.forall_mem_cons.2 ⟨?_, ?_⟩
      refine ⟨by simp [real], by simp [real], ?_⟩
      · intro d d' τ τ' _ h
        have h := h _ (.head _)
        exact h
    exact fun _ h => (List.not_mem_nil h).elim))

theorem FMI2.Depends.complete {g : Dependencies F} (h : FMI2.Depends m g) :
    ∃ (R : List Var) (l : Lens m R), l.Complete g := by
  cases h with
  | bouncingBall => exact ⟨_, .bouncingBall, by complete BouncingBall.dependencies Lens.bouncingBall⟩
  | dahlquist => exact ⟨_, .dahlquist, by complete Dahlquist.dependencies Lens.dahlquist⟩
  | feedthrough => exact ⟨_, .feedthrough2, by pairs 6⟩
  | vanDerPol => exact ⟨_, .vanDerPol, by complete VanDerPol.dependencies Lens.vanDerPol⟩

theorem FMI3.Depends.complete {g : Dependencies F} (h : FMI3.Depends m g) :
    ∃ (R : List Var) (l : Lens m R), l.Complete g := by
  cases h with
  | bouncingBall => exact ⟨_, .bouncingBall, by complete BouncingBall.dependencies Lens.bouncingBall⟩
  | dahlquist => exact ⟨_, .dahlquist, by complete Dahlquist.dependencies Lens.dahlquist⟩
  | feedthrough => exact ⟨_, .feedthrough3, by pairs 16⟩
  | roberts => exact ⟨_, .roberts, by complete Roberts.dependencies Lens.roberts⟩
  | robertsDAE => exact ⟨_, .roberts, by complete Roberts.dependenciesDAE Lens.roberts⟩
  | vanDerPol => exact ⟨_, .vanDerPol, by complete VanDerPol.dependencies Lens.vanDerPol⟩

/-- The unknowns of FMUs built for FMI 2.0 depend only on the variables that the model description lists, in all instances `w`
and `w'`, with any arithmetic. -/
theorem FMI2.C70 {g : Dependencies F} (hm : FMI2.Depends m g) {w w' : FMI2.World F D}
    (hs : w.inst.ctx.state ∈ FMI2.Spec.allowedIn .getReal) (hs' : w'.inst.ctx.state ∈ FMI2.Spec.allowedIn .getReal)
    (hg : ∀ s ∈ g.given, FMI2.Reads m w s.type s.vr s.value ∧ FMI2.Reads m w' s.type s.vr s.value) :
    (∀ r ∈ g.initial, FMI2.Equal m w w' r.2 → FMI2.Equal m w w' [r.1]) ∧
    ∀ r ∈ g.later, FMI2.Equal m w w' (r.2 ++ g.parameters) → FMI2.Equal m w w' [r.1] := by
  obtain ⟨R, l, h⟩ := hm.complete
  have ht : ∀ r ∈ g.initial ++ g.later, FMI2.hasType r.1.1 := by
    cases hm <;> simp [BouncingBall.dependencies, Dahlquist.dependencies, VanDerPol.dependencies, Feedthrough.dependencies2, real,
      FMI2.hasType]
  have hu : ∀ {vars : List Var}, (∀ p ∈ vars, p ∈ R) → FMI2.Equal m w w' vars → ∀ p ∈ vars,
      l.val p.1 p.2 w.inst.ctx.time w.inst.mv.data = l.val p.1 p.2 w'.inst.ctx.time w'.inst.mv.data := by
    intro vars hR he p hp
    obtain ⟨v, h1, h2⟩ := he p hp
    rw [FMI2.Reads.unique (FMI2.reads_lens l (hR p hp) h1.hasType hs) h1, FMI2.Reads.unique (FMI2.reads_lens l (hR p hp) h1.hasType hs') h2]
  have hv : ∀ {u : Var} {vars : List Var}, u ∈ R → FMI2.hasType u.1 → (∀ p ∈ vars, p ∈ R) → l.Determines g.given u vars →
      FMI2.Equal m w w' vars → FMI2.Equal m w w' [u] := by
    intro u vars h1 h2 h3 h4 he p hp
    rw [List.mem_singleton.1 hp]
    refine ⟨_, FMI2.reads_lens l h1 h2 hs, ?_⟩
    rw [h4 _ _ _ _ (fun s hs1 => ⟨FMI2.Reads.unique (FMI2.reads_lens l (h.given s hs1) (hg s hs1).1.hasType hs) (hg s hs1).1,
      FMI2.Reads.unique (FMI2.reads_lens l (h.given s hs1) (hg s hs1).1.hasType hs') (hg s hs1).2⟩) (hu h3 he)]
    exact FMI2.reads_lens l h1 h2 hs'
  exact ⟨fun r hr => hv (h.initial r hr).1 (ht r (List.mem_append_left _ hr)) (h.initial r hr).2.1 (h.initial r hr).2.2,
    fun r hr => hv (h.later r hr).1 (ht r (List.mem_append_right _ hr)) (fun p hp => (List.mem_append.1 hp).elim
      ((h.later r hr).2.1 p) (h.parameters p)) (h.later r hr).2.2⟩

/-- The unknowns of FMUs built for FMI 3.0 depend only on the variables that the model description lists, in all instances `w`
and `w'`, with any arithmetic. -/
theorem FMI3.C70_partial {g : Dependencies F} (hm : FMI3.Depends m g) {w w' : FMI3.World F D}
    (hs : w.inst.ctx.state ∈ FMI3.Spec.allowedIn (.get .float64)) (hs' : w'.inst.ctx.state ∈ FMI3.Spec.allowedIn (.get .float64))
    (hg : ∀ s ∈ g.given, FMI3.Reads m w s.type s.vr s.value ∧ FMI3.Reads m w' s.type s.vr s.value) :
    (∀ r ∈ g.initial, FMI3.Equal m w w' r.2 → FMI3.Equal m w w' [r.1]) ∧
    ∀ r ∈ g.later, FMI3.Equal m w w' (r.2 ++ g.parameters) → FMI3.Equal m w w' [r.1] := by
  obtain ⟨R, l, h⟩ := hm.complete
  have hr : ∀ {p : Var}, p ∈ R → FMI3.Reads m w p.1 p.2 (l.val p.1 p.2 w.inst.ctx.time w.inst.mv.data) ∧
      FMI3.Reads m w' p.1 p.2 (l.val p.1 p.2 w'.inst.ctx.time w'.inst.mv.data) := fun hp =>
    ⟨FMI3.reads_lens l hp hs, FMI3.reads_lens l hp hs'⟩
  have hv : ∀ {u : Var} {vars : List Var}, u ∈ R → (∀ p ∈ vars, p ∈ R) → l.Determines g.given u vars →
      FMI3.Equal m w w' vars → FMI3.Equal m w w' [u] := by
    intro u vars h1 h3 h4 he p hp
    rw [List.mem_singleton.1 hp]
    refine ⟨_, (hr h1).1, ?_⟩
    rw [h4 _ _ _ _ (fun s hs1 => ⟨FMI3.Reads.unique (hr (h.given s hs1)).1 (hg s hs1).1,
      FMI3.Reads.unique (hr (h.given s hs1)).2 (hg s hs1).2⟩) ?_]
    · exact (hr h1).2
    · intro p hp
      obtain ⟨v, e1, e2⟩ := he p hp
      rw [FMI3.Reads.unique (hr (h3 p hp)).1 e1, FMI3.Reads.unique (hr (h3 p hp)).2 e2]
  exact ⟨fun r hr => hv (h.initial r hr).1 (h.initial r hr).2.1 (h.initial r hr).2.2,
    fun r hr => hv (h.later r hr).1 (fun p hp => (List.mem_append.1 hp).elim
      ((h.later r hr).2.1 p) (h.parameters p)) (h.later r hr).2.2⟩

theorem C70.two {α : Type} : ∀ {l : List α}, l.length = 2 → ∃ a b, l = [a, b]
  | [a, b], _ => ⟨a, b, rfl⟩

theorem C70.three {α : Type} : ∀ {l : List α}, l.length = 3 → ∃ a b c, l = [a, b, c]
  | [a, b, c], _ => ⟨a, b, c, rfl⟩

/-- The factors that are declared constant are constant, in exact arithmetic. -/
theorem FMI2.C70_constant {D : Type} {m : Model XRat D} {u : Nat} {xs : List Nat} (h : FMI2.DeclaresConstant m u xs) :
    FMI2.Constant m (fun w => w.inst.ctx.state ∈ FMI2.Spec.allowedIn .getReal) u xs := by
  have one : ∀ {R : List Var} (l : Lens m R) {x : Nat}, real x ∈ R → real u ∈ R →
      (∀ τ d, l.val .float64 u τ d = l.val .float64 x τ d) →
      FMI2.Constant m (fun w => w.inst.ctx.state ∈ FMI2.Spec.allowedIn .getReal) u [x] := by
    intro R l x h1 h2 he
    refine ⟨0, [1], rfl, fun w q hs hl hq => ?_⟩
    obtain ⟨a, rfl⟩ := List.length_eq_one_iff.1 hl
    have e := FMI2.Reads.unique (FMI2.reads_lens l h1 (.inl rfl) hs) (hq (x, a) (.head _))
    have := FMI2.reads_lens l h2 (.inl rfl) hs
    simp only [real] at this e
    rw [he, e] at this
    simpa [affine] using this
  cases h with
  | height => exact one .bouncingBall (by simp [real]) (by simp [real]) (fun _ _ => rfl)
  | velocity => exact one .bouncingBall (by simp [real]) (by simp [real]) (fun _ _ => rfl)
  | feedthrough => exact one .feedthrough2 (by simp [real]) (by simp [real]) (fun _ _ => rfl)
  | feedthrough' => exact one .feedthrough2 (by simp [real]) (by simp [real]) (fun _ _ => rfl)
  | vanDerPol => exact one .vanDerPol (by simp [real]) (by simp [real]) (fun _ _ => rfl)

/-- The factors that are declared constant are constant, in exact arithmetic, but for the derivatives of Roberts with `dae`. -/
theorem FMI3.C70_constant_partial {D : Type} {m : Model XRat D} {dae : Option Bool} {u : Nat} {xs : List Nat}
    (h : FMI3.DeclaresConstant m dae u xs) (hu : dae = some true → u ≠ 3 ∧ u ≠ 5) : FMI3.Constant m (FMI3.Mode m dae) u xs := by
  have one : ∀ {R : List Var} (l : Lens m R) {x : Nat}, real x ∈ R → real u ∈ R →
      (∀ τ d, l.val .float64 u τ d = l.val .float64 x τ d) → FMI3.Constant m (FMI3.Mode m dae) u [x] := by
    intro R l x h1 h2 he
    refine ⟨0, [1], rfl, fun w q hs hl hq => ?_⟩
    obtain ⟨a, rfl⟩ := List.length_eq_one_iff.1 hl
    have e := FMI3.Reads.unique (FMI3.reads_lens l h1 hs.1) (hq (x, a) (.head _))
    have := FMI3.reads_lens l h2 hs.1
    simp only [real] at this e
    rw [he, e] at this
    simpa [affine] using this
  cases h with
  | height => exact one .bouncingBall (by simp [real]) (by simp [real]) (fun _ _ => rfl)
  | velocity => exact one .bouncingBall (by simp [real]) (by simp [real]) (fun _ _ => rfl)
  | feedthrough => exact one .feedthrough3 (by simp [real]) (by simp [real]) (fun _ _ => rfl)
  | feedthrough' => exact one .feedthrough3 (by simp [real]) (by simp [real]) (fun _ _ => rfl)
  | vanDerPol => exact one .vanDerPol (by simp [real]) (by simp [real]) (fun _ _ => rfl)
  | derY1 => exact ((hu rfl).1 rfl).elim
  | derY2 => exact ((hu rfl).2 rfl).elim
  | roberts =>
    refine ⟨1, [-1, -1], rfl, fun w q hs hl hq => ?_⟩
    obtain ⟨a, b, rfl⟩ := C70.two hl
    have ed := FMI3.Reads.unique (FMI3.reads_lens Lens.roberts (t := .boolean) (r := 1) (by simp) hs.1) (hs.2 _ rfl)
    have ea := FMI3.Reads.unique (FMI3.reads_lens Lens.roberts (t := .float64) (r := 2) (by simp) hs.1) (hq (2, a) (.head _))
    have eb := FMI3.Reads.unique (FMI3.reads_lens Lens.roberts (t := .float64) (r := 4) (by simp) hs.1) (hq (4, b) (.tail _ (.head _)))
    have := FMI3.reads_lens Lens.roberts (t := .float64) (r := 6) (by simp) hs.1
    simp only [Lens.roberts] at ed ea eb this
    simp only [Lens.robertsY3, ed, ea, eb, Bool.false_eq_true, if_false, XRat.lit_eq, XRat.sub_fin] at this
    have hv : affine 1 [-1, -1] [a, b] = 1 - a - b := by simp only [affine]; ring
    rw [hv]
    exact this
  | residual =>
    refine ⟨-1, [1, 1, 1], rfl, fun w q hs hl hq => ?_⟩
    obtain ⟨a, b, c, rfl⟩ := C70.three hl
    have ed := FMI3.Reads.unique (FMI3.reads_lens Lens.roberts (t := .boolean) (r := 1) (by simp) hs.1) (hs.2 _ rfl)
    have ea := FMI3.Reads.unique (FMI3.reads_lens Lens.roberts (t := .float64) (r := 2) (by simp) hs.1) (hq (2, a) (.head _))
    have eb := FMI3.Reads.unique (FMI3.reads_lens Lens.roberts (t := .float64) (r := 4) (by simp) hs.1) (hq (4, b) (.tail _ (.head _)))
    have ec := FMI3.Reads.unique (FMI3.reads_lens Lens.roberts (t := .float64) (r := 6) (by simp) hs.1)
      (hq (6, c) (.tail _ (.tail _ (.head _))))
    have := FMI3.reads_lens Lens.roberts (t := .float64) (r := 8) (by simp) hs.1
    simp only [Lens.roberts] at ed ea eb ec this
    simp only [ec, ea, eb, XRat.lit_eq, XRat.sub_fin, XRat.add_fin] at this
    have hv : affine (-1) [1, 1, 1] [a, b, c] = a + b + c - 1 := by simp only [affine]; ring
    rw [hv]
    exact this

/-- An instance of Roberts with the given `dae`, `y1`, `y2` and `y3`. -/
theorem C70.roberts (dae : Bool) (a b c : Rat) (h : (Ex.runME3 (Roberts.model : Model XRat _)
      [.set .boolean (some [1]) 1 (some [dae]) 1, .set .float64 (some [2, 4, 6]) 3 (some [.fin a, .fin b, .fin c]) 3,
        .enterInitializationMode (.fin 0) false (.fin 0)]).is (fun x => decide (x.1.inst.ctx.state = .initializationMode) &&
        decide (x.1.inst.mv.data.dae = dae ∧ x.1.inst.mv.data.y1 = .fin a ∧ x.1.inst.mv.data.y2 = .fin b ∧ x.1.inst.mv.data.y3 = .fin c))) :
    ∃ w : FMI3.World XRat _, FMI3.Reachable Roberts.model .modelExchange w ∧ FMI3.Mode Roberts.model (some dae) w ∧
      FMI3.Reads Roberts.model w .float64 2 (.fin a) ∧ FMI3.Reads Roberts.model w .float64 4 (.fin b) ∧
      FMI3.Reads Roberts.model w .float64 6 (if dae then .fin c else .fin (1 - a - b)) ∧
      (dae = true → FMI3.Reads Roberts.model w .float64 3 (.fin (-(4 / 100) * a + 10000 * b * c)) ∧
        FMI3.Reads Roberts.model w .float64 5 (.fin ((4 / 100) * a - 10000 * b * c - 30000000 * b * b))) := by
  obtain ⟨⟨w, outs⟩, e, h⟩ := Outcome.exists_of_is h
  simp only [Bool.and_eq_true, decide_eq_true_eq] at h
  obtain ⟨hs, hd, ha, hb, hc⟩ := h
  have hs : w.inst.ctx.state ∈ FMI3.Spec.allowedIn (.get .float64) := by rw [hs]; decide
  have h1 := FMI3.reads_lens Lens.roberts (t := .boolean) (r := 1) (by simp) hs
  have h2 := FMI3.reads_lens Lens.roberts (t := .float64) (r := 2) (by simp) hs
  have h4 := FMI3.reads_lens Lens.roberts (t := .float64) (r := 4) (by simp) hs
  have h6 := FMI3.reads_lens Lens.roberts (t := .float64) (r := 6) (by simp) hs
  have h3 := FMI3.reads_lens Lens.roberts (t := .float64) (r := 3) (by simp) hs
  have h5 := FMI3.reads_lens Lens.roberts (t := .float64) (r := 5) (by simp) hs
  simp only [Lens.roberts, Lens.robertsY3, hd, ha, hb, hc, Roberts.k1, Roberts.k2, Roberts.k3, XRat.lit_eq, XRat.sub_fin, XRat.neg_fin,
    XRat.mul_fin] at h1 h2 h3 h4 h5 h6
  refine ⟨w, Ex.reach_runME3 e, ⟨hs, ?_⟩, h2, h4, h6, ?_⟩
  · intro b hb; cases hb; exact h1
  · intro hd
    subst hd
    simp only [if_true, XRat.sub_fin, XRat.mul_fin, XRat.add_fin] at h3 h5
    exact ⟨h3, h5⟩

/-- The output `y3` of Roberts is declared to depend on nothing (Roberts/FMI3.xml 51, `dependencies=""`), but has different values. -/
theorem FMI3.C70_violated : ∃ w w' : FMI3.World XRat _, FMI3.Reachable Roberts.model .modelExchange w ∧
    FMI3.Reachable Roberts.model .modelExchange w' ∧ FMI3.Mode Roberts.model (some false) w ∧ FMI3.Mode Roberts.model (some false) w' ∧
    FMI3.Reads Roberts.model w .float64 6 (.fin 0) ∧ FMI3.Reads Roberts.model w' .float64 6 (.fin (1 / 2)) := by
  obtain ⟨w, h1, h2, -, -, h3, -⟩ := C70.roberts false 1 0 0 (by decide +kernel)
  obtain ⟨w', h1', h2', -, -, h3', -⟩ := C70.roberts false (1 / 2) 0 0 (by decide +kernel)
  refine ⟨w, w', h1, h1', h2, h2', ?_, ?_⟩
  · simpa using h3
  · have : (1 : Rat) - 1 / 2 - 0 = 1 / 2 := by norm_num
    rw [this] at h3'
    simpa using h3'

/-- The derivatives of Roberts with `dae` are declared combinations with constant factors (Roberts/fmi-ls-dae.xml 16-23), but contain
the product of `y2` and `y3`. -/
theorem FMI3.C70_constant_violated (u : Nat) (hu : u = 3 ∨ u = 5) : FMI3.DeclaresConstant Roberts.model (some true) u [2, 4, 6] ∧
    ¬ FMI3.Constant (Roberts.model : Model XRat _) (FMI3.Mode Roberts.model (some true)) u [2, 4, 6] := by
  refine ⟨by rcases hu with rfl | rfl; exacts [.derY1, .derY2], ?_⟩
  rintro ⟨c₀, cs, hl, h⟩
  obtain ⟨c1, c2, c3, rfl⟩ := C70.three hl
  have point : ∀ a b c w, FMI3.Mode Roberts.model (some true) w → FMI3.Reads Roberts.model w .float64 2 (.fin a) →
      FMI3.Reads Roberts.model w .float64 4 (.fin b) → FMI3.Reads Roberts.model w .float64 6 (.fin c) →
      FMI3.Reads Roberts.model w .float64 u (.fin (affine c₀ [c1, c2, c3] [a, b, c])) := by
    intro a b c w hm h2 h4 h6
    refine h w [a, b, c] hm rfl ?_
    simp only [List.zip_cons_cons, List.zip_nil_right, List.forall_mem_cons]
    exact ⟨h2, h4, h6, fun _ hp => (List.not_mem_nil hp).elim⟩
  obtain ⟨w0, -, m0, a0, b0, y0, d0⟩ := C70.roberts true 0 0 0 (by decide +kernel)
  obtain ⟨w1, -, m1, a1, b1, y1, d1⟩ := C70.roberts true 0 1 0 (by decide +kernel)
  obtain ⟨w2, -, m2, a2, b2, y2, d2⟩ := C70.roberts true 0 0 1 (by decide +kernel)
  obtain ⟨w3, -, m3, a3, b3, y3, d3⟩ := C70.roberts true 0 1 1 (by decide +kernel)
  have p0 := point _ _ _ _ m0 a0 b0 y0
  have p1 := point _ _ _ _ m1 a1 b1 y1
  have p2 := point _ _ _ _ m2 a2 b2 y2
  have p3 := point _ _ _ _ m3 a3 b3 y3
  rcases hu with rfl | rfl
  · have e0 := FMI3.Reads.unique p0 (d0 rfl).1
    have e1 := FMI3.Reads.unique p1 (d1 rfl).1
    have e2 := FMI3.Reads.unique p2 (d2 rfl).1
    have e3 := FMI3.Reads.unique p3 (d3 rfl).1
    simp only [XRat.fin.injEq, affine] at e0 e1 e2 e3
    linarith
  · have e0 := FMI3.Reads.unique p0 (d0 rfl).2
    have e1 := FMI3.Reads.unique p1 (d1 rfl).2
    have e2 := FMI3.Reads.unique p2 (d2 rfl).2
    have e3 := FMI3.Reads.unique p3 (d3 rfl).2
    simp only [XRat.fin.injEq, affine] at e0 e1 e2 e3
    linarith

/-! ### The hypotheses are met -/

/-- Two instances of BouncingBall with the same velocity, but different heights: the derivatives of the heights are the same. -/
example : ∃ w w' : FMI2.World XRat _, FMI2.Equal BouncingBall.model w w' [real 3] ∧ ¬ FMI2.Equal BouncingBall.model w w' [real 1] ∧
    FMI2.Equal BouncingBall.model w w' [real 2] := by
  have new : ∀ a : Rat, (Ex.run2 (BouncingBall.model : Model XRat _) .modelExchange
      [.setReal (some [1, 3]) 2 (some [.fin a, .fin 5]), .enterInitializationMode]).is (fun x =>
      decide (x.1.inst.ctx.state = .initializationMode) && decide (x.1.inst.mv.data.h = .fin a ∧ x.1.inst.mv.data.v = .fin 5)) →
      ∃ w : FMI2.World XRat _, w.inst.ctx.state ∈ FMI2.Spec.allowedIn .getReal ∧
        FMI2.Reads BouncingBall.model w .float64 1 (.fin a) ∧ FMI2.Reads BouncingBall.model w .float64 3 (.fin 5) := by
    intro a h
    obtain ⟨⟨w, outs⟩, e, h⟩ := Outcome.exists_of_is h
    simp only [Bool.and_eq_true, decide_eq_true_eq] at h
    have hs : w.inst.ctx.state ∈ FMI2.Spec.allowedIn .getReal := by rw [h.1]; decide
    have h1 := FMI2.reads_lens Lens.bouncingBall (t := .float64) (r := 1) (by simp) (.inl rfl) hs
    have h3 := FMI2.reads_lens Lens.bouncingBall (t := .float64) (r := 3) (by simp) (.inl rfl) hs
    simp only [Lens.bouncingBall, h.2] at h1 h3
    exact ⟨w, hs, h1, h3⟩
  obtain ⟨w, hs, h1, h3⟩ := new 1 (by decide +kernel)
  obtain ⟨w', hs', h1', h3'⟩ := new 2 (by decide +kernel)
  have he : FMI2.Equal BouncingBall.model w w' [real 3] := fun p hp => by
    rw [List.mem_singleton.1 hp]; exact ⟨_, h3, h3'⟩
  refine ⟨w, w', he, fun h => ?_, ?_⟩
  · obtain ⟨v, e, e'⟩ := h _ (.head _)
    have := (FMI2.Reads.unique h1 e).trans (FMI2.Reads.unique h1' e').symm
    simp at this
  · exact (FMI2.C70 .bouncingBall hs hs' (fun _ h => (List.not_mem_nil h).elim)).1 (real 2, [real 3]) (.head _) he

/-- Two instances of Roberts with the same `y1` and `y2`, but different stored values of `y3`. -/
example : ∃ w w' : FMI3.World XRat _, FMI3.Equal Roberts.model w w' [real 2, real 4] ∧ FMI3.Equal Roberts.model w w' [real 6] := by
  obtain ⟨w, -, ⟨hs, hd⟩, h2, h4, -⟩ := C70.roberts false (1 / 2) (1 / 4) 0 (by decide +kernel)
  obtain ⟨w', -, ⟨hs', hd'⟩, h2', h4', -⟩ := C70.roberts false (1 / 2) (1 / 4) 7 (by decide +kernel)
  have he : FMI3.Equal Roberts.model w w' [real 2, real 4] := by
    simp only [FMI3.Equal, List.forall_mem_cons]
    exact ⟨⟨_, h2, h2'⟩, ⟨_, h4, h4'⟩, fun _ h => (List.not_mem_nil h).elim⟩
  refine ⟨w, w', he, (FMI3.C70_partial .roberts hs hs' ?_).1 (real 6, [real 2, real 4]) (.tail _ (.tail _ (.head _))) he⟩
  simp only [Roberts.dependencies, List.forall_mem_cons]
  exact ⟨⟨hd _ rfl, hd' _ rfl⟩, fun _ h => (List.not_mem_nil h).elim⟩

/-- Instances of Roberts meet the hypotheses of `FMI3.C70_constant_partial`, for `y3` and the residual. -/
example : (∃ w : FMI3.World XRat _, FMI3.Mode Roberts.model (some false) w ∧ FMI3.Reads Roberts.model w .float64 2 (.fin (1 / 2)) ∧
      FMI3.Reads Roberts.model w .float64 4 (.fin (1 / 4))) ∧
    ∃ w : FMI3.World XRat _, FMI3.Mode Roberts.model (some true) w ∧ FMI3.Reads Roberts.model w .float64 2 (.fin (1 / 2)) ∧
      FMI3.Reads Roberts.model w .float64 4 (.fin (1 / 4)) ∧ FMI3.Reads Roberts.model w .float64 6 (.fin 7) := by
  obtain ⟨w, -, hm, h2, h4, -⟩ := C70.roberts false (1 / 2) (1 / 4) 0 (by decide +kernel)
  obtain ⟨w', -, hm', h2', h4', h6', -⟩ := C70.roberts true (1 / 2) (1 / 4) 7 (by decide +kernel)
  exact ⟨⟨w, hm, h2, h4⟩, w', hm', h2', h4', h6'⟩

end Verif
