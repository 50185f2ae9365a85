import Verif.Spec.Integrate
import Verif.Lemmas.EulerApi
import Verif.Props.C46
import Verif.Props.C57

/-!
# C27: Model Exchange with the importer's forward Euler method reproduces Co-Simulation
-/

set_option linter.unusedSectionVars false

namespace Verif
open Importer.Euler
variable {F D : Type} [Arith F] [HasInf F] {m : Model F D} {R : List (VType × Nat)}

/-- The variables of `R` show the whole state of the continuous part of the FMU. -/
structure Whole (o : Ode m) (l : Lens m R) : Prop where
  upd : o.calc' = l.upd
  inj : ∀ {d d' τ}, (∀ t r, (t, r) ∈ R → l.val t r τ d = l.val t r τ d') → o.calc' d = o.calc' d'
  states_upd : ∀ d x, x.length = o.nx → o.states (o.upd d x) = x
  time : (.float64, 0) ∈ R
  val_time : ∀ τ d, l.val .float64 0 τ d = τ
  other : ∀ {t r} τ τ' d, (t, r) ≠ (.float64, 0) → l.val t r τ d = l.val t r τ' d

theorem Whole.dahlquist : Whole (Dahlquist.ode (F := F)) Lens.dahlquist where
  upd := rfl
  inj {d d' τ} h := by
    have e1 := h .float64 1 (by simp)
    have e3 := h .float64 3 (by simp)
    cases d; cases d'
    simp only [Lens.dahlquist] at e1 e3
    simp only [Dahlquist.ode, e1, e3]
  states_upd d x h := by
    obtain ⟨a, rfl⟩ := List.length_eq_one_iff.1 h
    rfl
  time := by simp
  val_time _ _ := rfl
  other {t r} τ τ' d h := by
    simp only [Lens.dahlquist]
    split <;> first | rfl | exact absurd rfl h

theorem Whole.vanDerPol : Whole (VanDerPol.ode (F := F)) Lens.vanDerPol where
  upd := rfl
  inj {d d' τ} h := by
    have e1 := h .float64 1 (by simp)
    have e2 := h .float64 2 (by simp)
    have e3 := h .float64 3 (by simp)
    have e5 := h .float64 5 (by simp)
    cases d; cases d'
    simp only [Lens.vanDerPol] at e1 e2 e3 e5
    simp only [VanDerPol.ode, e1, e2, e3, e5]
  states_upd d x h := by
    match x, h with
    | [a, b], _ => rfl
  time := by simp
  val_time _ _ := rfl
  other {t r} τ τ' d h := by
    simp only [Lens.vanDerPol]
    split <;> first | rfl | exact absurd rfl h

theorem Whole.roberts : Whole (Roberts.ode (F := F)) Lens.roberts where
  upd := by
    funext d
    simp only [Roberts.ode, Lens.roberts, Roberts.calcData, Lens.robertsY3]
    cases h : d.dae <;> simp [h]
  inj {d d' τ} h := by
    have e1 := h .boolean 1 (by simp)
    have e2 := h .float64 2 (by simp)
    have e4 := h .float64 4 (by simp)
    have e6 := h .float64 6 (by simp)
    have e9 := h .float64 9 (by simp)
    have e10 := h .float64 10 (by simp)
    cases d; cases d'
    simp only [Lens.roberts, Lens.robertsY3] at e1 e2 e4 e6 e9 e10
    subst e1 e2 e4 e9 e10
    simp only [Roberts.ode, Roberts.calcData]
    rename_i b _ _ _ _ _ _ _ _ _ _ _ _
    cases b
    · simp
    · simp at e6
      simp [e6]
  states_upd d x h := by
    match x, h with
    | [a, b], _ => rfl
  time := by simp
  val_time _ _ := rfl
  other {t r} τ τ' d h := by
    simp only [Lens.roberts]
    split <;> first | rfl | exact absurd rfl h

/-! ## FMUs without events -/

/-- `n` passes of the importer are `n` forward Euler steps. -/
theorem Importer.Euler.passes_steps {W : Type} {api : Api F W} {inst : W → Comp F D} {Rd : W → Prop} {cfg : Config F} {o : Ode m}
    {K : D → F → Prop} (L : Laws o api inst Rd id (fun _ => True) K) (hc : cfg.For o) (hx : 0 < o.nx) {fuel : Nat} {w : W}
    (hK : ∀ n < 2 ^ 64, K (o.steps n (inst w).mv.data) (timeAfter m.h n))
    (hd : (inst w).ctx.time = Arith.lit 0) (hr : Rd w) {s₀ : Sim F W} (h₀ : initial api cfg fuel (.start cfg w) = .ret (true, s₀)) :
    ∀ {n : Nat} {s : Sim F W}, n < 2 ^ 64 → passes api cfg fuel n s₀ = .ret (true, s) →
      Inv o inst Rd s (o.steps n (inst w).mv.data) ∧ s.step = n ∧ s.time = timeAfter m.h n := by
  have ha : At o inst Rd (.start cfg w) (inst w).mv.data :=
    ⟨rfl, hd, hr, ⟨by simp [Sim.start, hc.nx], by simp [Sim.start, hc.nx], by simp [Sim.start, hc.nz], by simp [Sim.start, hc.nz]⟩⟩
  obtain ⟨i0, -, s0, t0, -⟩ := initial_inv L hc hx h₀ ha (by intro hz; simp [Sim.start, hc.nz, hz]) (hK 0 (by decide))
  intro n
  induction n with
  | zero => intro s _ h; cases h; exact ⟨i0, s0, t0⟩
  | succ n ih =>
    intro s hn h
    unfold passes at h
    obtain ⟨⟨b, s1⟩, h1, h⟩ := Outcome.bind_eq_ret.1 h
    cases b
    · cases h
    · obtain ⟨i1, s1, t1⟩ := ih (by omega) h1
      have hK1 := hK (n + 1) hn
      rw [timeAfter, if_neg (by omega), o.steps_add n 1] at hK1
      obtain ⟨h2, -, h3, h4, -⟩ := pass_inv L hc hx h i1 trivial (fun _ => by rw [t1]; exact hK n (by omega)) (by rw [s1, Nat.mod_eq_of_lt hn]; simp only [id, ite_self]; exact hK1)
      rw [s1, Nat.mod_eq_of_lt hn] at h3
      refine ⟨?_, h3, ?_⟩
      · rw [o.steps_add n 1]
        simp only [id, ite_self] at h2
        exact h2
      · rw [h4, h3, timeAfter, if_neg (by omega)]

/-- An FMU without events. -/
theorem Events.still {o : Ode m} {l : Lens m R} (W : Whole o l) (hn : m.eventUpdate = none) : Events o id fun _ => True where
  none _ := ⟨rfl, fun _ => trivial⟩
  some h := by rw [hn] at h; cases h
  idem _ := rfl
  info _ _ := trivial
  states_upd := W.states_upd

/-- Steps of equal states show equal values. -/
theorem Whole.val_steps {o : Ode m} {l : Lens m R} (W : Whole o l) {n : Nat} {d d' e e' : D} {τ τ' : F} {t : VType} {r : Nat}
    (h : o.calc' d = o.calc' d') (he : o.calc' e = o.calc' (o.steps n d)) (he' : o.calc' e' = o.calc' (o.steps n d'))
    (ht : (t, r) ≠ (.float64, 0) ∨ τ = τ') : l.val t r τ e = l.val t r τ' e' := by
  have : o.calc' e = o.calc' e' := by rw [he, he', o.steps_calc n h]
  have e1 : l.val t r τ e = l.val t r τ e' := by rw [← l.upd_val, ← W.upd, this, W.upd, l.upd_val]
  rw [e1]
  rcases ht with ht | rfl
  · exact W.other _ _ _ ht
  · rfl

theorem Advanced.startedAt {h : F} {t t' : Times F} {n : Nat} (a : Advanced h t t' n) (h0 : t.nSteps = 0) (ht : t.time = t.startTime)
    (hz : t.time = Arith.lit 0) (hn : n < 2 ^ 64) : t'.time = startedAt h n := by
  rw [a.time, Verif.startedAt, a.nSteps, h0, ← ht, hz, Nat.zero_add, Nat.mod_eq_of_lt hn]
  split
  · rfl
  · rfl

namespace FMI2

theorem steps_lens {o : Ode m} {l : Lens m R} (W : Whole o l) (hm : RefFMU2 m) (hr : m.ReadsUpTo o.calc') (hn : m.eventUpdate = none)
    (hx : 0 < o.nx) (hnx : m.maxNX = o.nx) (hnz : m.maxNZ = o.nz) (hty : ∀ p ∈ R, hasType p.1) {w₁ w₂ c₁ c₂ : World F D}
    {n : Nat} {p : Bool} (h : Integrates m w₁ w₂ n p) (hc : Stepped m c₁ c₂) (ha : SameValues R m w₁ c₁)
    (ht : Reads m w₁ .float64 0 (Arith.lit 0)) :
    Readable w₂.inst ∧ Readable c₂.inst ∧ w₂.inst.ctx.time = timeAfter m.h n ∧ ∃ k, c₂.inst.ctx.time = startedAt m.h k ∧
      (k = n → ∀ t r τ τ', (t, r) ≠ (.float64, 0) ∨ τ = τ' → l.val t r τ w₂.inst.mv.data = l.val t r τ' c₂.inst.mv.data) := by
  obtain ⟨hlt, w, f₁, x, stopTime, vrs, fuel, s₀, s, hw, e₁, h0, h1, rfl, -⟩ := h
  obtain ⟨v, f₂, y, fuel', ops, outs, hv, e₂, hops, e₃, hs, hb⟩ := hc
  have hk := hm.eff.okOrError
  have q : ∀ t r, (t, r) ∈ R → l.val t r w₁.inst.ctx.time w₁.inst.mv.data = l.val t r c₁.inst.ctx.time c₁.inst.mv.data := by
    intro t r htr
    obtain ⟨a, h1, h2⟩ := ha t r htr
    rw [← h1.unique (reads_lens l htr (hty _ htr) h1.allowed), ← h2.unique (reads_lens l htr (hty _ htr) h2.allowed)]
  have et := ht.unique (reads_lens l W.time (.inl rfl) ht.allowed)
  have ec := q _ _ W.time
  rw [W.val_time] at et
  rw [W.val_time, W.val_time] at ec
  have hd : o.calc' w₁.inst.mv.data = o.calc' c₁.inst.mv.data := W.inj (τ := w₁.inst.ctx.time) fun t r h => by
    have := q t r h
    rwa [← ec] at this
  obtain ⟨i, -, htm⟩ := passes_steps (K := fun _ _ => True) (laws2 o hm.eff hr (Events.still W hn) vrs) (cfg := .of m stopTime true) ⟨hnx, hnz, rfl⟩ hx (fun _ _ => trivial) et.symm
    ht.allowed h0 hlt h1
  obtain ⟨k, hkl, hcd, had⟩ := run_steps o hm hr hn ops (Reachable.call hk hv e₂) hops e₃ hs
  obtain ⟨hz, hts⟩ := exit_start hk hv e₂
  obtain ⟨a, -, hra⟩ := ha _ _ W.time
  refine ⟨i.rd, run_readable hk hra.allowed hops e₃, i.time.trans htm, k, ?_, ?_⟩
  · exact had.startedAt hz hts (ec.symm.trans et.symm) (by omega)
  · rintro rfl t r τ τ' htr
    exact W.val_steps hd i.data hcd htr

end FMI2

namespace FMI3

theorem steps_lens {o : Ode m} {l : Lens m R} (W : Whole o l) (hm : RefFMU3 m) (hr : m.ReadsUpTo o.calc') (hn : m.eventUpdate = none)
    (hx : 0 < o.nx) (hnx : m.maxNX = o.nx) (hnz : m.maxNZ = o.nz) {w₁ w₂ c₁ c₂ : World F D}
    {n : Nat} {p : Bool} (h : Integrates m w₁ w₂ n p) (hc : Stepped m c₁ c₂) (ha : SameValues R m w₁ c₁)
    (ht : Reads m w₁ .float64 0 (Arith.lit 0)) :
    Readable w₂.inst ∧ Readable c₂.inst ∧ w₂.inst.ctx.time = timeAfter m.h n ∧ ∃ k, c₂.inst.ctx.time = startedAt m.h k ∧
      (k = n → ∀ t r τ τ', (t, r) ≠ (.float64, 0) ∨ τ = τ' → l.val t r τ w₂.inst.mv.data = l.val t r τ' c₂.inst.mv.data) := by
  obtain ⟨hlt, w, f₁, x, stopTime, vrs, fuel, s₀, s, hw, e₁, h0, h1, rfl, -⟩ := h
  obtain ⟨p, v, f₂, y, fuel', ops, outs, hv, e₂, hops, e₃, hs, -, hb⟩ := hc
  have hk := hm.eff.okOrError
  have hw₁ := Reachable.call hk hw e₁
  have hc₁ := ReachableProper.call hv e₂ (by intro h; cases h)
  have hre := hw₁.readable hk
  have hre' := (hc₁.reachable hk).readable hk
  have q : ∀ t r, (t, r) ∈ R → l.val t r w₁.inst.ctx.time w₁.inst.mv.data = l.val t r c₁.inst.ctx.time c₁.inst.mv.data := by
    intro t r htr
    obtain ⟨a, h1, h2⟩ := ha t r htr
    rw [← h1.unique (reads_lens l htr (hre.all t)), ← h2.unique (reads_lens l htr (hre'.all t))]
  have et := ht.unique (reads_lens l W.time hre)
  have ec := q _ _ W.time
  rw [W.val_time] at et
  rw [W.val_time, W.val_time] at ec
  have hd : o.calc' w₁.inst.mv.data = o.calc' c₁.inst.mv.data := W.inj (τ := w₁.inst.ctx.time) fun t r h => by
    have := q t r h
    rwa [← ec] at this
  obtain ⟨i, -, htm⟩ := passes_steps (K := fun _ _ => True) (laws3 o hm.eff hr (Events.still W hn) .modelExchange vrs) (cfg := .of m stopTime false)
    ⟨hnx, hnz, rfl⟩ hx (fun _ _ => trivial) et.symm hw₁ h0 hlt h1
  obtain ⟨hz, hts, hsd⟩ := exit_start hk (hv.reachable hk) e₂
  obtain ⟨hr₂, k, hkl, hcd, had⟩ := run_steps o hm hr hn ops hc₁ hsd hops e₃ hs
  refine ⟨i.rd.readable hk, (hr₂.reachable hk).readable hk, i.time.trans htm, k, ?_, ?_⟩
  · exact had.startedAt hz hts (ec.symm.trans et.symm) (by omega)
  · rintro rfl t r τ τ' htr
    exact W.val_steps hd i.data hcd htr

end FMI3

theorem timeAfter_eq (h : Rat) (n : Nat) : timeAfter (XRat.fin h) n = .fin (0 + n * h) := by
  unfold timeAfter
  split
  · next e => subst e; simp
  · simp

theorem startedAt_eq (h : Rat) (n : Nat) : startedAt (XRat.fin h) n = .fin (0 + n * h) := by
  unfold startedAt
  split
  · next e => subst e; simp
  · simp [gridPoint]

namespace FMI2

theorem same_steps {o : Ode m} {l : Lens m R} (W : Whole o l) (hm : RefFMU2 m) (hr : m.ReadsUpTo o.calc') (hn : m.eventUpdate = none)
    (hx : 0 < o.nx) (hnx : m.maxNX = o.nx) (hnz : m.maxNZ = o.nz) (hty : ∀ p ∈ R, hasType p.1) {w₁ w₂ c₁ c₂ : World F D}
    {n : Nat} {p : Bool} (h : Integrates m w₁ w₂ n p) (hc : Stepped m c₁ c₂) (ha : SameValues R m w₁ c₁)
    (ht : Reads m w₁ .float64 0 (Arith.lit 0)) {S : List (VType × Nat)} (hS : ∀ p ∈ S, p ∈ R ∧ p ≠ (.float64, 0)) :
    Reads m w₂ .float64 0 (timeAfter m.h n) ∧
      ∃ k, Reads m c₂ .float64 0 (startedAt m.h k) ∧ (k = n → SameValues S m w₂ c₂) := by
  obtain ⟨r1, r2, t1, k, t2, hs⟩ := steps_lens W hm hr hn hx hnx hnz hty h hc ha ht
  have q1 := reads_lens l W.time (.inl rfl) r1
  have q2 := reads_lens l W.time (.inl rfl) r2
  rw [W.val_time, t1] at q1
  rw [W.val_time, t2] at q2
  refine ⟨q1, k, q2, fun hk t r htr => ?_⟩
  obtain ⟨h1, h2⟩ := hS _ htr
  refine ⟨_, reads_lens l h1 (hty _ h1) r1, ?_⟩
  rw [hs hk t r _ c₂.inst.ctx.time (.inl h2)]
  exact reads_lens l h1 (hty _ h1) r2

theorem same_exact {m : Model XRat D} {o : Ode m} {l : Lens m R} (W : Whole o l) (hm : RefFMU2 m) (hr : m.ReadsUpTo o.calc')
    (hn : m.eventUpdate = none) (hx : 0 < o.nx) (hnx : m.maxNX = o.nx) (hnz : m.maxNZ = o.nz)
    (hty : ∀ p ∈ R, hasType p.1) {h' : Rat} (hh : m.h = .fin h') (hh' : 0 < h') {w₁ w₂ c₁ c₂ : World XRat D}
    {n : Nat} {p : Bool} (h : Integrates m w₁ w₂ n p) (hc : Stepped m c₁ c₂) (ha : SameValues R m w₁ c₁)
    (ht : Reads m w₁ .float64 0 (.fin 0)) (he : SameValues [(.float64, 0)] m w₂ c₂) : SameValues R m w₂ c₂ := by
  obtain ⟨r1, r2, t1, k, t2, hs⟩ := steps_lens W hm hr hn hx hnx hnz hty h hc ha (by simpa using ht)
  obtain ⟨x, h1, h2⟩ := he .float64 0 (by simp)
  have e1 := h1.unique (reads_lens l W.time (.inl rfl) r1)
  have e2 := h2.unique (reads_lens l W.time (.inl rfl) r2)
  rw [W.val_time] at e1 e2
  have ee := e1.symm.trans e2
  have hk : k = n := by
    rw [t1, t2, hh, timeAfter_eq, startedAt_eq] at ee
    exact FMI3.steps_eq hh' ee.symm
  intro t r htr
  refine ⟨_, reads_lens l htr (hty _ htr) r1, ?_⟩
  rw [hs hk t r _ c₂.inst.ctx.time (.inr ee)]
  exact reads_lens l htr (hty _ htr) r2

end FMI2

namespace FMI3

theorem same_steps {o : Ode m} {l : Lens m R} (W : Whole o l) (hm : RefFMU3 m) (hr : m.ReadsUpTo o.calc') (hn : m.eventUpdate = none)
    (hx : 0 < o.nx) (hnx : m.maxNX = o.nx) (hnz : m.maxNZ = o.nz) {w₁ w₂ c₁ c₂ : World F D}
    {n : Nat} {p : Bool} (h : Integrates m w₁ w₂ n p) (hc : Stepped m c₁ c₂) (ha : SameValues R m w₁ c₁)
    (ht : Reads m w₁ .float64 0 (Arith.lit 0)) {S : List (VType × Nat)} (hS : ∀ p ∈ S, p ∈ R ∧ p ≠ (.float64, 0)) :
    Reads m w₂ .float64 0 (timeAfter m.h n) ∧
      ∃ k, Reads m c₂ .float64 0 (startedAt m.h k) ∧ (k = n → SameValues S m w₂ c₂) := by
  obtain ⟨r1, r2, t1, k, t2, hs⟩ := steps_lens W hm hr hn hx hnx hnz h hc ha ht
  have q1 := reads_lens l W.time r1
  have q2 := reads_lens l W.time r2
  rw [W.val_time, t1] at q1
  rw [W.val_time, t2] at q2
  refine ⟨q1, k, q2, fun hk t r htr => ?_⟩
  obtain ⟨h1, h2⟩ := hS _ htr
  refine ⟨_, reads_lens l h1 (r1.all t), ?_⟩
  rw [hs hk t r _ c₂.inst.ctx.time (.inl h2)]
  exact reads_lens l h1 (r2.all t)

theorem same_exact {m : Model XRat D} {o : Ode m} {l : Lens m R} (W : Whole o l) (hm : RefFMU3 m) (hr : m.ReadsUpTo o.calc')
    (hn : m.eventUpdate = none) (hx : 0 < o.nx) (hnx : m.maxNX = o.nx) (hnz : m.maxNZ = o.nz)
    {h' : Rat} (hh : m.h = .fin h') (hh' : 0 < h') {w₁ w₂ c₁ c₂ : World XRat D}
    {n : Nat} {p : Bool} (h : Integrates m w₁ w₂ n p) (hc : Stepped m c₁ c₂) (ha : SameValues R m w₁ c₁)
    (ht : Reads m w₁ .float64 0 (.fin 0)) (he : SameValues [(.float64, 0)] m w₂ c₂) : SameValues R m w₂ c₂ := by
  obtain ⟨r1, r2, t1, k, t2, hs⟩ := steps_lens W hm hr hn hx hnx hnz h hc ha (by simpa using ht)
  obtain ⟨x, h1, h2⟩ := he .float64 0 (by simp)
  have e1 := h1.unique (reads_lens l W.time r1)
  have e2 := h2.unique (reads_lens l W.time r2)
  rw [W.val_time] at e1 e2
  have ee := e1.symm.trans e2
  have hk : k = n := by
    rw [t1, t2, hh, timeAfter_eq, startedAt_eq] at ee
    exact FMI3.steps_eq hh' ee.symm
  intro t r htr
  refine ⟨_, reads_lens l htr (r1.all t), ?_⟩
  rw [hs hk t r _ c₂.inst.ctx.time (.inr ee)]
  exact reads_lens l htr (r2.all t)

end FMI3

/-! ### Dahlquist -/

/-- **C27** for Dahlquist and FMI 2.0, in any arithmetic: a Model Exchange instance and a Co-Simulation instance show the
same values and the time 0 after their initialisation. After `n` passes of the importer for Model Exchange, and after the
solver of Co-Simulation made `k` steps, as the times show, they show the same values if `k = n`. -/
theorem C27_dahlquist_fmi2 {w₁ w₂ c₁ c₂ : FMI2.World F (Dahlquist.Data F)} {n : Nat} {found : Bool}
    (h : FMI2.Integrates Dahlquist.model w₁ w₂ n found) (hc : FMI2.Stepped Dahlquist.model c₁ c₂)
    (ha : FMI2.SameValues [(.float64, 0), (.float64, 1), (.float64, 2), (.float64, 3)] Dahlquist.model w₁ c₁)
    (ht : FMI2.Reads Dahlquist.model w₁ .float64 0 (Arith.lit 0)) :
    FMI2.Reads Dahlquist.model w₂ .float64 0 (timeAfter (Arith.lit (1 / 10)) n) ∧
      ∃ k, FMI2.Reads Dahlquist.model c₂ .float64 0 (startedAt (Arith.lit (1 / 10)) k) ∧
        (k = n → FMI2.SameValues [(.float64, 1), (.float64, 2), (.float64, 3)] Dahlquist.model w₂ c₂) :=
  FMI2.same_steps .dahlquist .dahlquist Dahlquist.reads rfl (by exact Nat.succ_pos _) rfl rfl (by simp [FMI2.hasType]) h hc ha ht (by decide)

/-- **C27** for Dahlquist and FMI 2.0, in exact arithmetic: if both show the same time, they show the same values. -/
theorem C27_dahlquist_exact_fmi2 {w₁ w₂ c₁ c₂ : FMI2.World XRat (Dahlquist.Data XRat)} {n : Nat} {found : Bool}
    (h : FMI2.Integrates Dahlquist.model w₁ w₂ n found) (hc : FMI2.Stepped Dahlquist.model c₁ c₂)
    {vars : List (VType × Nat)} (hv : vars = [(.float64, 0), (.float64, 1), (.float64, 2), (.float64, 3)])
    (ha : FMI2.SameValues vars Dahlquist.model w₁ c₁) (ht : FMI2.Reads Dahlquist.model w₁ .float64 0 (.fin 0))
    (he : FMI2.SameValues [(.float64, 0)] Dahlquist.model w₂ c₂) : FMI2.SameValues vars Dahlquist.model w₂ c₂ := by
  subst hv
  exact FMI2.same_exact .dahlquist .dahlquist Dahlquist.reads rfl (by exact Nat.succ_pos _) rfl rfl (by simp [FMI2.hasType]) (h' := 1 / 10) rfl
    (by norm_num) h hc ha ht he

/-- **C27** for Dahlquist and FMI 3.0, in any arithmetic; as for FMI 2.0. -/
theorem C27_dahlquist_fmi3 {w₁ w₂ c₁ c₂ : FMI3.World F (Dahlquist.Data F)} {n : Nat} {found : Bool}
    (h : FMI3.Integrates Dahlquist.model w₁ w₂ n found) (hc : FMI3.Stepped Dahlquist.model c₁ c₂)
    (ha : FMI3.SameValues [(.float64, 0), (.float64, 1), (.float64, 2), (.float64, 3)] Dahlquist.model w₁ c₁)
    (ht : FMI3.Reads Dahlquist.model w₁ .float64 0 (Arith.lit 0)) :
    FMI3.Reads Dahlquist.model w₂ .float64 0 (timeAfter (Arith.lit (1 / 10)) n) ∧
      ∃ k, FMI3.Reads Dahlquist.model c₂ .float64 0 (startedAt (Arith.lit (1 / 10)) k) ∧
        (k = n → FMI3.SameValues [(.float64, 1), (.float64, 2), (.float64, 3)] Dahlquist.model w₂ c₂) :=
  FMI3.same_steps .dahlquist .dahlquist Dahlquist.reads rfl (by exact Nat.succ_pos _) rfl rfl h hc ha ht (by decide)

/-- **C27** for Dahlquist and FMI 3.0, in exact arithmetic: if both show the same time, they show the same values. -/
theorem C27_dahlquist_exact_fmi3 {w₁ w₂ c₁ c₂ : FMI3.World XRat (Dahlquist.Data XRat)} {n : Nat} {found : Bool}
    (h : FMI3.Integrates Dahlquist.model w₁ w₂ n found) (hc : FMI3.Stepped Dahlquist.model c₁ c₂)
    {vars : List (VType × Nat)} (hv : vars = [(.float64, 0), (.float64, 1), (.float64, 2), (.float64, 3)])
    (ha : FMI3.SameValues vars Dahlquist.model w₁ c₁) (ht : FMI3.Reads Dahlquist.model w₁ .float64 0 (.fin 0))
    (he : FMI3.SameValues [(.float64, 0)] Dahlquist.model w₂ c₂) : FMI3.SameValues vars Dahlquist.model w₂ c₂ := by
  subst hv
  exact FMI3.same_exact .dahlquist .dahlquist Dahlquist.reads rfl (by exact Nat.succ_pos _) rfl rfl (h' := 1 / 10) rfl (by norm_num) h hc ha ht he

/-! ### VanDerPol -/

/-- **C27** for VanDerPol and FMI 2.0, in any arithmetic; as for Dahlquist. -/
theorem C27_vanDerPol_fmi2 {w₁ w₂ c₁ c₂ : FMI2.World F (VanDerPol.Data F)} {n : Nat} {found : Bool}
    (h : FMI2.Integrates VanDerPol.model w₁ w₂ n found) (hc : FMI2.Stepped VanDerPol.model c₁ c₂)
    (ha : FMI2.SameValues [(.float64, 0), (.float64, 1), (.float64, 2), (.float64, 3), (.float64, 4), (.float64, 5)]
      VanDerPol.model w₁ c₁)
    (ht : FMI2.Reads VanDerPol.model w₁ .float64 0 (Arith.lit 0)) :
    FMI2.Reads VanDerPol.model w₂ .float64 0 (timeAfter (Arith.lit (1 / 100)) n) ∧
      ∃ k, FMI2.Reads VanDerPol.model c₂ .float64 0 (startedAt (Arith.lit (1 / 100)) k) ∧
        (k = n → FMI2.SameValues [(.float64, 1), (.float64, 2), (.float64, 3), (.float64, 4), (.float64, 5)]
          VanDerPol.model w₂ c₂) :=
  FMI2.same_steps .vanDerPol .vanDerPol VanDerPol.reads rfl (by exact Nat.succ_pos _) rfl rfl (by simp [FMI2.hasType]) h hc ha ht (by decide)

/-- **C27** for VanDerPol and FMI 2.0, in exact arithmetic: if both show the same time, they show the same values. -/
theorem C27_vanDerPol_exact_fmi2 {w₁ w₂ c₁ c₂ : FMI2.World XRat (VanDerPol.Data XRat)} {n : Nat} {found : Bool}
    (h : FMI2.Integrates VanDerPol.model w₁ w₂ n found) (hc : FMI2.Stepped VanDerPol.model c₁ c₂)
    {vars : List (VType × Nat)}
    (hv : vars = [(.float64, 0), (.float64, 1), (.float64, 2), (.float64, 3), (.float64, 4), (.float64, 5)])
    (ha : FMI2.SameValues vars VanDerPol.model w₁ c₁) (ht : FMI2.Reads VanDerPol.model w₁ .float64 0 (.fin 0))
    (he : FMI2.SameValues [(.float64, 0)] VanDerPol.model w₂ c₂) : FMI2.SameValues vars VanDerPol.model w₂ c₂ := by
  subst hv
  exact FMI2.same_exact .vanDerPol .vanDerPol VanDerPol.reads rfl (by exact Nat.succ_pos _) rfl rfl (by simp [FMI2.hasType]) (h' := 1 / 100) rfl
    (by norm_num) h hc ha ht he

/-- **C27** for VanDerPol and FMI 3.0, in any arithmetic; as for Dahlquist. -/
theorem C27_vanDerPol_fmi3 {w₁ w₂ c₁ c₂ : FMI3.World F (VanDerPol.Data F)} {n : Nat} {found : Bool}
    (h : FMI3.Integrates VanDerPol.model w₁ w₂ n found) (hc : FMI3.Stepped VanDerPol.model c₁ c₂)
    (ha : FMI3.SameValues [(.float64, 0), (.float64, 1), (.float64, 2), (.float64, 3), (.float64, 4), (.float64, 5)]
      VanDerPol.model w₁ c₁)
    (ht : FMI3.Reads VanDerPol.model w₁ .float64 0 (Arith.lit 0)) :
    FMI3.Reads VanDerPol.model w₂ .float64 0 (timeAfter (Arith.lit (1 / 100)) n) ∧
      ∃ k, FMI3.Reads VanDerPol.model c₂ .float64 0 (startedAt (Arith.lit (1 / 100)) k) ∧
        (k = n → FMI3.SameValues [(.float64, 1), (.float64, 2), (.float64, 3), (.float64, 4), (.float64, 5)]
          VanDerPol.model w₂ c₂) :=
  FMI3.same_steps .vanDerPol .vanDerPol VanDerPol.reads rfl (by exact Nat.succ_pos _) rfl rfl h hc ha ht (by decide)

/-- **C27** for VanDerPol and FMI 3.0, in exact arithmetic: if both show the same time, they show the same values. -/
theorem C27_vanDerPol_exact_fmi3 {w₁ w₂ c₁ c₂ : FMI3.World XRat (VanDerPol.Data XRat)} {n : Nat} {found : Bool}
    (h : FMI3.Integrates VanDerPol.model w₁ w₂ n found) (hc : FMI3.Stepped VanDerPol.model c₁ c₂)
    {vars : List (VType × Nat)}
    (hv : vars = [(.float64, 0), (.float64, 1), (.float64, 2), (.float64, 3), (.float64, 4), (.float64, 5)])
    (ha : FMI3.SameValues vars VanDerPol.model w₁ c₁) (ht : FMI3.Reads VanDerPol.model w₁ .float64 0 (.fin 0))
    (he : FMI3.SameValues [(.float64, 0)] VanDerPol.model w₂ c₂) : FMI3.SameValues vars VanDerPol.model w₂ c₂ := by
  subst hv
  exact FMI3.same_exact .vanDerPol .vanDerPol VanDerPol.reads rfl (by exact Nat.succ_pos _) rfl rfl (h' := 1 / 100) rfl (by norm_num) h hc ha ht he

/-! ### Roberts -/

/-- **C27** for Roberts, in any arithmetic; as for Dahlquist. -/
theorem C27_roberts_fmi3 {w₁ w₂ c₁ c₂ : FMI3.World F (Roberts.Data F)} {n : Nat} {found : Bool}
    (h : FMI3.Integrates Roberts.model w₁ w₂ n found) (hc : FMI3.Stepped Roberts.model c₁ c₂)
    (ha : FMI3.SameValues [(.float64, 0), (.boolean, 1), (.float64, 2), (.float64, 3), (.float64, 4), (.float64, 5), (.float64, 6), (.float64, 7),
      (.float64, 8), (.float64, 9), (.float64, 10)] Roberts.model w₁ c₁)
    (ht : FMI3.Reads Roberts.model w₁ .float64 0 (Arith.lit 0)) :
    FMI3.Reads Roberts.model w₂ .float64 0 (timeAfter (Arith.lit (1 / 1000000)) n) ∧
      ∃ k, FMI3.Reads Roberts.model c₂ .float64 0 (startedAt (Arith.lit (1 / 1000000)) k) ∧
        (k = n → FMI3.SameValues [(.boolean, 1), (.float64, 2), (.float64, 3), (.float64, 4), (.float64, 5), (.float64, 6), (.float64, 7),
      (.float64, 8), (.float64, 9), (.float64, 10)] Roberts.model w₂ c₂) :=
  FMI3.same_steps .roberts .roberts Roberts.reads rfl (by exact Nat.succ_pos _) rfl rfl h hc ha ht (by decide)

/-- **C27** for Roberts, in exact arithmetic: if both show the same time, they show the same values. -/
theorem C27_roberts_exact_fmi3 {w₁ w₂ c₁ c₂ : FMI3.World XRat (Roberts.Data XRat)} {n : Nat} {found : Bool}
    (h : FMI3.Integrates Roberts.model w₁ w₂ n found) (hc : FMI3.Stepped Roberts.model c₁ c₂)
    {vars : List (VType × Nat)} (hv : vars = [(.float64, 0), (.boolean, 1), (.float64, 2), (.float64, 3), (.float64, 4), (.float64, 5), (.float64, 6), (.float64, 7),
      (.float64, 8), (.float64, 9), (.float64, 10)])
    (ha : FMI3.SameValues vars Roberts.model w₁ c₁) (ht : FMI3.Reads Roberts.model w₁ .float64 0 (.fin 0))
    (he : FMI3.SameValues [(.float64, 0)] Roberts.model w₂ c₂) : FMI3.SameValues vars Roberts.model w₂ c₂ := by
  subst hv
  exact FMI3.same_exact .roberts .roberts Roberts.reads rfl (by exact Nat.succ_pos _) rfl rfl (h' := 1 / 1000000) rfl
    (by norm_num) h hc ha ht he

/-! ## BouncingBall -/

namespace BouncingBall
open Verif

/-- The data after an event. -/
def landed (d : Data XRat) : Data XRat :=
  if d.h <=. Arith.lit 0 && d.v <. Arith.lit 0 then
    if Arith.neg d.v *. d.e <. vMin then { d with h := dblMin, v := Arith.lit 0, g := Arith.lit 0 }
    else { d with h := dblMin, v := Arith.neg d.v *. d.e }
  else d

theorem landed_of (b : Ball) : landed (.of b) = .of b.bounce := by
  obtain ⟨h0, v0, g0, e0⟩ := b
  unfold landed Ball.bounce
  by_cases hh : Ball.Hits ⟨h0, v0, g0, e0⟩
  · obtain ⟨h1, h2⟩ := id hh
    simp only at h1 h2
    have hm : -v0 * e0 = -(e0 * v0) := by ring
    by_cases hv : -(e0 * v0) < 1 / 10
    · have hv : -(e0 * v0) < 10⁻¹ := by simpa using hv
      simp [Data.of, hh, h1, h2, hv, hm, vMin, dblMin]
    · have hv : ¬ -(e0 * v0) < 10⁻¹ := by simpa using hv
      simp [Data.of, hh, h1, h2, hv, hm, vMin, dblMin]
  · have : ¬ (h0 ≤ 0 ∧ v0 < 0) := hh
    simp [Data.of, hh, this]

theorem dblMin_pos : ((dblMin : XRat) <=. Arith.lit 0) = false := by
  have : ¬ ((1 / 2 ^ 1022 : Rat) ≤ 0) := not_le.2 (div_pos one_pos (pow_pos two_pos _))
  unfold dblMin
  rw [XRat.lit_eq, XRat.lit_eq, XRat.le_fin]
  simpa using this

theorem events : Events (BouncingBall.ode (F := XRat)) landed fun i => i.nextEventTimeDefined = false where
  none h := by cases h
  some {eu ctx mv mv' d} h hd e := by
    cases h
    have hd : mv.data = d := hd
    subst hd
    unfold eventUpdate at e
    simp only [Outcome.ret.injEq, Prod.mk.injEq, and_true] at e
    subst e
    refine ⟨?_, rfl, ?_⟩
    · show _ = landed _
      unfold landed
      simp only [BouncingBall.ode]
      by_cases h1 : (mv.data.h <=. Arith.lit 0 && mv.data.v <. Arith.lit 0) = true
      · simp only [if_pos h1]
      · simp only [if_neg h1]
    · intro hv
      unfold landed
      split at hv
      · cases hv
      · next hh => rw [if_neg hh]
  idem d := by
    by_cases h : (d.h <=. Arith.lit 0 && d.v <. Arith.lit 0) = true
    · have : (landed d).h = dblMin := by
        unfold landed
        rw [if_pos h]
        split <;> rfl
      generalize landed d = x at this
      unfold landed
      rw [this, dblMin_pos]
      rfl
    · have : landed d = d := by unfold landed; rw [if_neg h]
      rw [this, this]
  info _ h := h
  states_upd d x h := by
    match x, h with
    | [a, b], _ => rfl

/-- The ball is above the ground, or it is not going to fall. -/
def Flies (b : Ball) : Prop := 0 < b.h ∨ 0 ≤ b.v ∧ 0 ≤ b.g

theorem Flies.bounce {b : Ball} (h : Flies b) : b.bounce = b := by
  unfold Ball.bounce
  rw [if_neg]
  rintro ⟨h1, h2⟩
  rcases h with h | ⟨h, -⟩
  · exact absurd h (not_lt.2 h1)
  · exact absurd h (not_le.2 h2)

theorem bounce_hits {b : Ball} (h : b.Hits) : 0 < b.bounce.h ∧ 0 ≤ b.bounce.v := by
  have hpos : (0 : Rat) < 1 / 2 ^ 1022 := div_pos one_pos (pow_pos two_pos _)
  unfold Ball.bounce
  rw [if_pos h]
  split
  · exact ⟨hpos, le_refl _⟩
  · next hv => exact ⟨hpos, le_trans (by norm_num) (not_lt.1 hv)⟩

theorem Flies.next {b : Ball} (h : Flies b) : Flies b.next := by
  unfold Ball.next
  split
  · next h1 =>
    by_cases hh : b.fall.Hits
    · exact .inl (bounce_hits hh).1
    · have : b.fall.bounce = b.fall := by unfold Ball.bounce; rw [if_neg hh]
      rw [this]
      by_cases h2 : 0 < b.fall.h
      · exact .inl h2
      · have h3 : 0 ≤ b.fall.v := not_lt.1 fun h3 => hh ⟨not_lt.1 h2, h3⟩
        refine .inr ⟨h3, ?_⟩
        simp only [Ball.fall] at h2 h3 ⊢
        linarith
  · next h1 =>
    rcases h with h | ⟨h, h'⟩
    · exact absurd h h1
    · refine .inr ⟨?_, h'⟩
      simp only [Ball.fall]
      linarith

/-- One pass of the importer: `b` is the ball, `p` says whether an event was found, `c` is the ball of Co-Simulation. -/
structure Twin (b : Ball) (p : Bool) (c : Ball) : Prop where
  eq : (if p then b.bounce else b) = c
  flies : Flies c
  up : p = true → 0 < c.h → 0 ≤ c.v

theorem Twin.next {b : Ball} {p : Bool} {c : Ball} (h : Twin b p c) :
    Twin c.fall (!p && decide ((0 < b.h ∧ c.fall.h ≤ 0) ∨ (b.h ≤ 0 ∧ 0 < c.fall.h))) c.next := by
  refine ⟨?_, h.flies.next, ?_⟩
  · cases p
    · have hb : b = c := h.eq
      subst hb
      simp only [Bool.not_false, Bool.true_and, decide_eq_true_eq, Ball.next]
      rcases lt_or_ge 0 b.h with h1 | h1 <;> rcases lt_or_ge 0 b.fall.h with h2 | h2
      · rw [if_pos h1, bounce_above h2, ite_self]
      · rw [if_pos (.inl ⟨h1, h2⟩), if_pos h1]
      · rw [bounce_above h2, ite_self, ite_self]
      · rw [if_neg (not_lt.2 h1), if_neg]
        rintro (⟨h3, -⟩ | ⟨-, h3⟩)
        · exact absurd h3 (not_lt.2 h1)
        · exact absurd h3 (not_lt.2 h2)
    · simp only [Bool.not_true, Bool.false_and, Bool.false_eq_true, if_false, Ball.next]
      split
      · next h1 =>
        refine (bounce_above ?_).symm
        have := h.up rfl h1
        simp only [Ball.fall]
        linarith
      · rfl
  · intro hp hc
    cases p
    · have hb : b = c := h.eq
      subst hb
      simp only [Bool.not_false, Bool.true_and, decide_eq_true_eq] at hp
      rcases hp with ⟨h1, h2⟩ | ⟨h1, h2⟩
      · unfold Ball.next at hc ⊢
        rw [if_pos h1] at hc ⊢
        by_cases hh : b.fall.Hits
        · exact (bounce_hits hh).2
        · have : b.fall.bounce = b.fall := by unfold Ball.bounce; rw [if_neg hh]
          rw [this] at hc
          exact absurd hc (not_lt.2 h2)
      · unfold Ball.next
        rw [if_neg (not_lt.2 h1)]
        rcases h.flies with h3 | ⟨h3, h4⟩
        · exact absurd h3 (not_lt.2 h1)
        · simp only [Ball.fall]
          linarith
    · cases hp

/-- The passes of the importer. -/
theorem passes_ball {W : Type} {api : Api XRat W} {inst : W → Comp XRat (Data XRat)} {Rd : W → Prop} {cfg : Config XRat}
    {K : Data XRat → XRat → Prop} (L : Laws (BouncingBall.ode (F := XRat)) api inst Rd landed (fun i => i.nextEventTimeDefined = false) K)
    (hc : cfg.For (BouncingBall.ode (F := XRat))) {fuel : Nat} {w : W} {b : Ball}
    (hK : ∀ n < 2 ^ 64, K (.of (Ball.next^[n] b)) (.fin (n * (1 / 1000))) ∧ K (.of (Ball.next^[n] b).fall) (.fin ((n + 1 : Nat) * (1 / 1000))))
    (hd : (inst w).ctx.time = .fin 0) (hb : (inst w).mv.data = .of b) (hf : Flies b) (hr : Rd w) {s₀ : Sim XRat W}
    (h₀ : initial api cfg fuel (.start cfg w) = .ret (true, s₀)) :
    ∀ {n : Nat} {s : Sim XRat W}, n < 2 ^ 64 → passes api cfg fuel n s₀ = .ret (true, s) →
      ∃ a, Inv (BouncingBall.ode (F := XRat)) inst Rd s (.of a) ∧ s.step = n ∧ s.time = .fin (0 + n * (1 / 1000)) ∧
        s.info.nextEventTimeDefined = false ∧ s.stepEvent = false ∧ Twin a s.stateEvent (Ball.next^[n] b) := by
  have ha : At (BouncingBall.ode (F := XRat)) inst Rd (.start cfg w) (.of b) :=
    ⟨hb, hd.trans (XRat.lit_eq _).symm, hr,
      ⟨by simp [Sim.start, hc.nx], by simp [Sim.start, hc.nx], by simp [Sim.start, hc.nz], by simp [Sim.start, hc.nz]⟩⟩
  obtain ⟨i0, n0, s0, t0, e0, p0⟩ := initial_inv L hc (by decide) h₀ ha (by intro hz; simp [Sim.start, hc.nz, hz])
    (by rw [landed_of, hf.bounce]; have := (hK 0 (by decide)).1; simpa [Sim.start] using this)
  rw [landed_of, hf.bounce] at i0
  intro n
  induction n with
  | zero =>
    intro s _ h
    cases h
    refine ⟨b, i0, s0, ?_, n0, p0, ⟨?_, hf, ?_⟩⟩
    · rw [t0]; simp [Sim.start]
    · rw [e0]; rfl
    · rw [e0]; intro h; cases h
  | succ n ih =>
    intro s hn h
    unfold passes at h
    obtain ⟨⟨q, s1⟩, h1, h⟩ := Outcome.bind_eq_ret.1 h
    cases q
    · cases h
    · obtain ⟨a, i1, hs1, ht1, hn1, hp1, tw⟩ := ih (by omega) h1
      have hoc : eventOccurred s1 = s1.stateEvent := by
        unfold eventOccurred
        rw [ht1, hn1, hp1]
        have : ((HasInf.inf : XRat) <=. XRat.fin (0 + n * (1 / 1000))) = false := rfl
        rw [this]
        simp
      have hd1 : (if eventOccurred s1 then landed (.of a) else .of a) = Data.of (Ball.next^[n] b) := by
        rw [hoc, ← tw.eq, landed_of]
        split <;> rfl
      obtain ⟨h2, h2n, h3, h4, h5, h6⟩ := pass_inv L hc (by decide) h i1 hn1 (fun ho => by
          rw [if_pos ho] at hd1; rw [hd1, ht1, zero_add]; exact (hK n (by omega)).1)
        (by rw [hd1, euler_of, hs1, Nat.mod_eq_of_lt hn]; exact (hK n (by omega)).2)
      rw [hs1, Nat.mod_eq_of_lt hn] at h3
      rw [hd1, euler_of] at h2
      rw [hd1, euler_of, hoc, if_neg (by decide)] at h6
      obtain ⟨p, hp, hps⟩ := indicator_of a
      obtain ⟨q, hq, hqs⟩ := indicator_of (Ball.next^[n] b).fall
      have hcr := crossing_eq (p := p) hq
      simp only [Ode.crossing] at hcr
      have hin : (BouncingBall.ode (F := XRat)).inds (.of a) = [.fin p] := congrArg (fun x => [x]) hp
      rw [hin] at h6
      have hcr' : zeroCrossing (BouncingBall.ode (F := XRat)).nz [.fin p]
          ((BouncingBall.ode (F := XRat)).inds (.of (Ball.next^[n] b).fall)) =
          decide ((0 < a.h ∧ (Ball.next^[n] b).fall.h ≤ 0) ∨ (a.h ≤ 0 ∧ 0 < (Ball.next^[n] b).fall.h)) := by
        rw [if_neg (by decide)] at hcr
        rw [hcr]
        have e1 : q ≤ 0 ↔ (Ball.next^[n] b).fall.h ≤ 0 := by rw [← not_lt, ← not_lt, hqs]
        have e2 : p ≤ 0 ↔ a.h ≤ 0 := by rw [← not_lt, ← not_lt, hps]
        rw [decide_eq_decide, e1, e2, hps, hqs]
      rw [hcr'] at h6
      refine ⟨_, h2, h3, ?_, h2n, h5, ?_⟩
      · rw [h4, h3]
        show _ *. XRat.fin (1 / 1000) = _
        simp
      · rw [Function.iterate_succ_apply', h6]
        exact tw.next

end BouncingBall

/-- **C27** for BouncingBall and FMI 2.0, in exact arithmetic: a Model Exchange instance and a Co-Simulation instance show the
same values and the time 0 after their initialisation, and the ball is above the ground, or is not going to fall. If
they show the same time later, with any number of bounces behind them, they show the same values, but if the importer for Model
Exchange has just found a state event, the ball of Co-Simulation is what the event will make of the ball of Model Exchange. -/
theorem C27_bouncingBall_fmi2 {w₁ w₂ c₁ c₂ : FMI2.World XRat (BouncingBall.Data XRat)} {n : Nat} {found : Bool}
    (h : FMI2.Integrates BouncingBall.model w₁ w₂ n found) (hc : FMI2.Stepped BouncingBall.model c₁ c₂) {vars : List (VType × Nat)}
    (hv : vars = [(.float64, 0), (.float64, 1), (.float64, 2), (.float64, 3), (.float64, 4), (.float64, 5), (.float64, 6), (.float64, 7)])
    (ha : FMI2.SameValues vars BouncingBall.model w₁ c₁) (ht : FMI2.Reads BouncingBall.model w₁ .float64 0 (.fin 0)) {b : Ball}
    (hb : FMI2.ReadsBall w₁ b) (hf : 0 < b.h ∨ 0 ≤ b.v ∧ 0 ≤ b.g) (he : FMI2.SameValues [(.float64, 0)] BouncingBall.model w₂ c₂) :
    if found then ∃ a, FMI2.ReadsBall w₂ a ∧ FMI2.ReadsBall c₂ a.bounce else FMI2.SameValues vars BouncingBall.model w₂ c₂ := by
  obtain ⟨hlt, w, f₁, x, stopTime, vrs, fuel, s₀, s, hw, e₁, h0, h1, rfl, rfl⟩ := h
  have hm : RefFMU2 (BouncingBall.model : Model XRat _) := .bouncingBall
  have hk := hm.eff.okOrError
  have hw₁ := hb.h.readable
  have hc0 := hc
  have et := ht.unique (FMI2.reads_lens Lens.bouncingBall (by simp) (.inl rfl) hw₁)
  obtain ⟨a, i, -, htm, -, -, tw⟩ := BouncingBall.passes_ball (K := fun _ _ => True) (laws2 BouncingBall.ode hm.eff BouncingBall.reads BouncingBall.events vrs)
    (cfg := .of BouncingBall.model stopTime true) ⟨rfl, rfl, rfl⟩ (fun _ _ => ⟨trivial, trivial⟩) et.symm hb.data hf hw₁ h0 hlt h1
  have r2 := i.rd
  have same : ∀ {r : Nat} {v : XRat}, r < 8 → FMI2.Reads BouncingBall.model w₁ .float64 r v → FMI2.Reads BouncingBall.model c₁ .float64 r v := by
    intro r v hr h
    obtain ⟨u, h1, h2⟩ := ha .float64 r (by subst hv; simp; omega)
    rw [h.unique h1]
    exact h2
  have hcb : FMI2.ReadsBall c₁ b := ⟨same (by decide) hb.h, same (by decide) hb.v, same (by decide) hb.g, same (by decide) hb.e⟩
  have hct := same (by decide) ht
  obtain ⟨k, hkt, hkb⟩ : ∃ k : Nat, FMI2.Reads BouncingBall.model c₂ .float64 0 (.fin (0 + k * (1 / 1000))) ∧
      FMI2.ReadsBall c₂ (Ball.next^[k] b) := by
    obtain ⟨v, f₂, y, fuel', ops, outs, hv, e₂, hops, e₃, hs, hl⟩ := hc
    obtain ⟨k, q1, q2⟩ := FMI2.C57_fmi2 hv e₂ hct hcb hops e₃ hs hl
    refine ⟨k, ?_, q2⟩
    rw [mul_one_div]
    exact q1
  obtain ⟨u, u1, u2⟩ := he .float64 0 (by simp)
  have v1 := u1.unique (FMI2.reads_lens Lens.bouncingBall (by simp) (.inl rfl) r2)
  have hkn : k = n := by
    refine FMI3.steps_eq (t₀ := 0) (h := 1 / 1000) (by norm_num) ?_
    rw [hkt.unique u2, v1]
    exact (i.time.trans htm)
  subst hkn
  have hab : FMI2.ReadsBall s.w a := .of_data i.data r2
  cases hse : s.stateEvent
  · have e : a = Ball.next^[k] b := by have := tw.eq; rw [hse] at this; exact this
    rw [← e] at hkb
    have hre := hkb.h.readable
    have hda : s.w.inst.mv.data = c₂.inst.mv.data := by rw [hab.data, hkb.data]
    have hti : s.w.inst.ctx.time = c₂.inst.ctx.time := v1.symm.trans (u2.unique (FMI2.reads_lens Lens.bouncingBall (by simp) (.inl rfl) hre))
    intro t r htr
    subst hv
    have hty : FMI2.hasType t := by
      simp only [List.mem_cons, Prod.mk.injEq, List.not_mem_nil, or_false] at htr
      left
      rcases htr with h | h | h | h | h | h | h | h <;> exact h.1
    refine ⟨_, FMI2.reads_lens Lens.bouncingBall htr hty r2, ?_⟩
    rw [hda, hti]
    exact FMI2.reads_lens Lens.bouncingBall htr hty hre
  · have e : a.bounce = Ball.next^[k] b := by have := tw.eq; rw [hse] at this; exact this
    exact ⟨a, hab, e ▸ hkb⟩

/-- **C27** for BouncingBall and FMI 3.0, in exact arithmetic: a Model Exchange instance and a Co-Simulation instance show the
same values and the time 0 after their initialisation, and the ball is above the ground, or is not going to fall. If
they show the same time later, with any number of bounces behind them, they show the same values, but if the importer for Model
Exchange has just found a state event, the ball of Co-Simulation is what the event will make of the ball of Model Exchange. -/
theorem C27_bouncingBall_fmi3 {w₁ w₂ c₁ c₂ : FMI3.World XRat (BouncingBall.Data XRat)} {n : Nat} {found : Bool}
    (h : FMI3.Integrates BouncingBall.model w₁ w₂ n found) (hc : FMI3.Stepped BouncingBall.model c₁ c₂) {vars : List (VType × Nat)}
    (hv : vars = [(.float64, 0), (.float64, 1), (.float64, 2), (.float64, 3), (.float64, 4), (.float64, 5), (.float64, 6), (.float64, 7)])
    (ha : FMI3.SameValues vars BouncingBall.model w₁ c₁) (ht : FMI3.Reads BouncingBall.model w₁ .float64 0 (.fin 0)) {b : Ball}
    (hb : FMI3.ReadsBall w₁ b) (hf : 0 < b.h ∨ 0 ≤ b.v ∧ 0 ≤ b.g) (he : FMI3.SameValues [(.float64, 0)] BouncingBall.model w₂ c₂) :
    if found then ∃ a, FMI3.ReadsBall w₂ a ∧ FMI3.ReadsBall c₂ a.bounce else FMI3.SameValues vars BouncingBall.model w₂ c₂ := by
  obtain ⟨hlt, w, f₁, x, stopTime, vrs, fuel, s₀, s, hw, e₁, h0, h1, rfl, rfl⟩ := h
  have hm : RefFMU3 (BouncingBall.model : Model XRat _) := .bouncingBall
  have hk := hm.eff.okOrError
  have hw₁ := FMI3.Reachable.call hk hw e₁
  have hc0 := hc
  have et := ht.unique (FMI3.reads_lens Lens.bouncingBall (by simp) (hw₁.readable hk))
  obtain ⟨a, i, -, htm, -, -, tw⟩ := BouncingBall.passes_ball (K := fun _ _ => True) (laws3 BouncingBall.ode hm.eff BouncingBall.reads BouncingBall.events .modelExchange vrs)
    (cfg := .of BouncingBall.model stopTime false) ⟨rfl, rfl, rfl⟩ (fun _ _ => ⟨trivial, trivial⟩) et.symm hb.data hf hw₁ h0 hlt h1
  have r2 := i.rd.readable hk
  have same : ∀ {r : Nat} {v : XRat}, r < 8 → FMI3.Reads BouncingBall.model w₁ .float64 r v → FMI3.Reads BouncingBall.model c₁ .float64 r v := by
    intro r v hr h
    obtain ⟨u, h1, h2⟩ := ha .float64 r (by subst hv; simp; omega)
    rw [h.unique h1]
    exact h2
  have hcb : FMI3.ReadsBall c₁ b := ⟨same (by decide) hb.h, same (by decide) hb.v, same (by decide) hb.g, same (by decide) hb.e⟩
  have hct := same (by decide) ht
  obtain ⟨k, hkt, hkb⟩ : ∃ k : Nat, FMI3.Reads BouncingBall.model c₂ .float64 0 (.fin (0 + k * (1 / 1000))) ∧
      FMI3.ReadsBall c₂ (Ball.next^[k] b) := by
    obtain ⟨p, v, f₂, y, fuel', ops, outs, hv, e₂, hops, e₃, hs, hh, hl⟩ := hc
    obtain ⟨k, q1, a, q2, q3⟩ := FMI3.C57_fmi3 hv e₂ hct hcb hops e₃ hs hh hl
    have hp : (if p then b.bounce else b) = b := by rw [BouncingBall.Flies.bounce hf, ite_self]
    have q3 : a = Ball.next^[k] b := q3.trans (by rw [hp])
    refine ⟨k, ?_, q3 ▸ q2⟩
    rw [mul_one_div]
    exact q1
  obtain ⟨u, u1, u2⟩ := he .float64 0 (by simp)
  have v1 := u1.unique (FMI3.reads_lens Lens.bouncingBall (by simp) r2)
  have hkn : k = n := by
    refine FMI3.steps_eq (t₀ := 0) (h := 1 / 1000) (by norm_num) ?_
    rw [hkt.unique u2, v1]
    exact (i.time.trans htm)
  subst hkn
  have hab : FMI3.ReadsBall s.w a := .of_data i.data r2
  cases hse : s.stateEvent
  · have e : a = Ball.next^[k] b := by have := tw.eq; rw [hse] at this; exact this
    rw [← e] at hkb
    have hre := FMI3.Reads.readable hkb.h
    have hda : s.w.inst.mv.data = c₂.inst.mv.data := by rw [hab.data, hkb.data]
    have hti : s.w.inst.ctx.time = c₂.inst.ctx.time := v1.symm.trans (u2.unique (FMI3.reads_lens Lens.bouncingBall (by simp) hre))
    intro t r htr
    subst hv
    refine ⟨_, FMI3.reads_lens Lens.bouncingBall htr (r2.all t), ?_⟩
    rw [hda, hti]
    exact FMI3.reads_lens Lens.bouncingBall htr (hre.all t)
  · have e : a.bounce = Ball.next^[k] b := by have := tw.eq; rw [hse] at this; exact this
    exact ⟨a, hab, e ▸ hkb⟩

/-! ## Examples -/

section examples
open Ex
variable {D : Type} {m : Model XRat D}

/-- Initialise a Model Exchange instance with the calls `pre` and let the importer go through its loop `n` times. -/
def C27.me2 (m : Model XRat D) (pre : List (FMI2.Op XRat)) (vrs : List Nat) (n : Nat)
    (p : FMI2.World XRat D → FMI2.World XRat D → Bool → Bool) : Bool :=
  (run2 m .modelExchange pre).is fun x => (FMI2.step m 1000 x.1 .exitInitializationMode).is fun y => decide (y.2.1 = .OK) &&
    (initial (api2 m vrs) (.of m (.fin 10) true) 10 (.start (.of m (.fin 10) true) y.1)).is fun a => a.1 &&
      (passes (api2 m vrs) (.of m (.fin 10) true) 10 n a.2).is fun b => b.1 && p y.1 b.2.w b.2.stateEvent

def C27.me3 (m : Model XRat D) (pre : List (FMI3.Op XRat)) (vrs : List Nat) (n : Nat)
    (p : FMI3.World XRat D → FMI3.World XRat D → Bool → Bool) : Bool :=
  (runME3 m pre).is fun x => (FMI3.step m 1000 x.1 .exitInitializationMode).is fun y => decide (y.2.1 = .OK) &&
    (initial (api3 m vrs) (.of m (.fin 10) false) 10 (.start (.of m (.fin 10) false) y.1)).is fun a => a.1 &&
      (passes (api3 m vrs) (.of m (.fin 10) false) 10 n a.2).is fun b => b.1 && p y.1 b.2.w b.2.stateEvent

theorem C27.integrates2 {pre vrs n p} (h : C27.me2 m pre vrs n p = true) (hn : n < 2 ^ 64) :
    ∃ w₁ w₂ found, FMI2.Integrates m w₁ w₂ n found ∧ p w₁ w₂ found = true := by
  obtain ⟨⟨w, o⟩, e1, h⟩ := Outcome.exists_of_is h
  obtain ⟨⟨w₁, s, o1⟩, e2, h⟩ := Outcome.exists_of_is h
  simp only [Bool.and_eq_true, decide_eq_true_eq] at h
  obtain ⟨rfl, h⟩ := h
  obtain ⟨⟨b, s₀⟩, e3, h⟩ := Outcome.exists_of_is h
  simp only [Bool.and_eq_true] at h
  obtain ⟨rfl, h⟩ := h
  obtain ⟨⟨b, s⟩, e4, h⟩ := Outcome.exists_of_is h
  simp only [Bool.and_eq_true] at h
  obtain ⟨rfl, h⟩ := h
  exact ⟨w₁, s.w, _, ⟨hn, w, _, _, _, vrs, _, s₀, s, reach_run2 e1, e2, e3, e4, rfl, rfl⟩, h⟩

theorem C27.integrates3 {pre vrs n p} (h : C27.me3 m pre vrs n p = true) (hn : n < 2 ^ 64) :
    ∃ w₁ w₂ found, FMI3.Integrates m w₁ w₂ n found ∧ p w₁ w₂ found = true := by
  obtain ⟨⟨w, o⟩, e1, h⟩ := Outcome.exists_of_is h
  obtain ⟨⟨w₁, s, o1⟩, e2, h⟩ := Outcome.exists_of_is h
  simp only [Bool.and_eq_true, decide_eq_true_eq] at h
  obtain ⟨rfl, h⟩ := h
  obtain ⟨⟨b, s₀⟩, e3, h⟩ := Outcome.exists_of_is h
  simp only [Bool.and_eq_true] at h
  obtain ⟨rfl, h⟩ := h
  obtain ⟨⟨b, s⟩, e4, h⟩ := Outcome.exists_of_is h
  simp only [Bool.and_eq_true] at h
  obtain ⟨rfl, h⟩ := h
  exact ⟨w₁, s.w, _, ⟨hn, w, _, _, _, vrs, _, s₀, s, reach_runME3 e1, e2, e3, e4, rfl, rfl⟩, h⟩

theorem C27.stepped2 {pre ops p} (h : sim2 m pre ops p = true) (hops : ∀ op ∈ ops, ¬ FMI2.Interferes op) (hl : ops.length < 1000) :
    ∃ w₁ w₂, FMI2.Stepped m w₁ w₂ ∧ p w₁ w₂ = true := by
  obtain ⟨⟨w, o⟩, e1, h⟩ := Outcome.exists_of_is h
  obtain ⟨⟨w₁, s, o1⟩, e2, h⟩ := Outcome.exists_of_is h
  simp only [Bool.and_eq_true, decide_eq_true_eq] at h
  obtain ⟨rfl, h⟩ := h
  obtain ⟨⟨w₂, outs⟩, e3, h⟩ := Outcome.exists_of_is h
  simp only [Bool.and_eq_true, List.all_eq_true, decide_eq_true_eq] at h
  exact ⟨w₁, w₂, ⟨w, _, _, 1000, ops, outs, reach_run2 e1, e2, hops, e3, h.1, by omega⟩, h.2⟩

theorem C27.stepped3 {emu era p : Bool} {pre ops q} (h : C46.sim m emu era p pre ops q = true)
    (hpre : ∀ op ∈ pre, op.fn ∉ [FMI3.Fn.doStep, .updateDiscreteStates, .setFMUState, .enterStepMode])
    (hops : ∀ op ∈ ops, ¬ FMI3.Interferes op) (hl : ops.length < 1000) :
    ∃ w₁ w₂, FMI3.Stepped m w₁ w₂ ∧ q w₁ w₂ = true := by
  obtain ⟨w₁, w₂, ⟨w, f₁, o, fuel, ops, outs, h1, h2⟩, hq⟩ := C46.handles h hpre hops hl
  exact ⟨w₁, w₂, ⟨p, w, f₁, o, fuel, ops, outs, h1.reachable.proper, h2⟩, hq⟩

/-- Dahlquist with `k = 2`, 7 steps, FMI 2.0: Model Exchange. -/
example : ∃ w₁ w₂ found, FMI2.Integrates Dahlquist.model w₁ w₂ 7 found ∧
    (has Lens.dahlquist w₁.inst .float64 0 (.fin 0) && has Lens.dahlquist w₁.inst .float64 3 (.fin 2) &&
      has Lens.dahlquist w₂.inst .float64 0 (.fin (7 / 10)) && has Lens.dahlquist w₂.inst .float64 1 (.fin ((4 / 5) ^ 7))) = true :=
  C27.integrates2 (pre := [.setupExperiment (.fin 0) false (.fin 0), .setReal (some [3]) 1 (some [.fin 2]), .enterInitializationMode])
    (vrs := [1]) (p := fun w₁ w₂ _ => _) (by decide +kernel) (by decide)

/-- Dahlquist with `k = 2`, 7 steps, FMI 2.0: Co-Simulation. -/
example : ∃ w₁ w₂, FMI2.Stepped Dahlquist.model w₁ w₂ ∧
    (has Lens.dahlquist w₁.inst .float64 0 (.fin 0) && has Lens.dahlquist w₁.inst .float64 3 (.fin 2) &&
      has Lens.dahlquist w₂.inst .float64 0 (.fin (7 / 10)) && has Lens.dahlquist w₂.inst .float64 1 (.fin ((4 / 5) ^ 7))) = true :=
  C27.stepped2 (pre := [.setupExperiment (.fin 0) false (.fin 0), .setReal (some [3]) 1 (some [.fin 2]), .enterInitializationMode])
    (ops := [.doStep (.fin 0) (.fin (3 / 10)), .doStep (.fin (3 / 10)) (.fin (2 / 5))]) (p := fun w₁ w₂ => _)
    (by decide +kernel) (by simp [FMI2.Interferes, FMI2.Op.fn]) (by decide)

/-- VanDerPol with `μ = 2`, FMI 3.0: Model Exchange and Co-Simulation. -/
example : ∃ w₁ w₂ found, FMI3.Integrates VanDerPol.model w₁ w₂ 3 found ∧
    (has Lens.vanDerPol w₁.inst .float64 0 (.fin 0) && has Lens.vanDerPol w₁.inst .float64 5 (.fin 2) &&
      has Lens.vanDerPol w₂.inst .float64 0 (.fin (3 / 100)) && has Lens.vanDerPol w₂.inst .float64 1 (.fin (499853 / 250000))) = true :=
  C27.integrates3 (pre := [.set .float64 (some [5]) 1 (some [.fin 2]) 1, .enterInitializationMode (.fin 0) false (.fin 0)])
    (vrs := [1]) (p := fun w₁ w₂ _ => _) (by decide +kernel) (by decide)

example : ∃ w₁ w₂, FMI3.Stepped VanDerPol.model w₁ w₂ ∧
    (has Lens.vanDerPol w₁.inst .float64 0 (.fin 0) && has Lens.vanDerPol w₁.inst .float64 5 (.fin 2) &&
      has Lens.vanDerPol w₂.inst .float64 0 (.fin (3 / 100)) && has Lens.vanDerPol w₂.inst .float64 1 (.fin (499853 / 250000))) = true :=
  C27.stepped3 (emu := false) (era := false) (p := false)
    (pre := [.set .float64 (some [5]) 1 (some [.fin 2]) 1, .enterInitializationMode (.fin 0) false (.fin 0)])
    (ops := [.doStep (.fin 0) (.fin (3 / 100)) stepOut]) (q := fun w₁ w₂ => _)
    (by decide +kernel) (by simp [FMI3.Op.fn]) (by simp [FMI3.Interferes, FMI3.Op.fn]) (by decide)

/-- Roberts: Model Exchange and Co-Simulation. -/
example : ∃ w₁ w₂ found, FMI3.Integrates Roberts.model w₁ w₂ 2 found ∧
    (has Lens.roberts w₁.inst .float64 0 (.fin 0) && has Lens.roberts w₂.inst .float64 0 (.fin (2 / 1000000)) &&
      has Lens.roberts w₂.inst .float64 2 (.fin ((24999999 / 25000000) ^ 2))) = true :=
  C27.integrates3 (pre := [.enterInitializationMode (.fin 0) false (.fin 0)])
    (vrs := [2]) (p := fun w₁ w₂ _ => _) (by decide +kernel) (by decide)

/-- (The tolerance of `fmi3DoStep` is larger than the solver step, so it makes 11 steps.) -/
example : ∃ w₁ w₂ found, FMI3.Integrates Roberts.model w₁ w₂ 11 found ∧
    (has Lens.roberts w₁.inst .float64 0 (.fin 0) && has Lens.roberts w₂.inst .float64 0 (.fin (11 / 1000000))) = true :=
  C27.integrates3 (pre := [.enterInitializationMode (.fin 0) false (.fin 0)])
    (vrs := [2]) (p := fun w₁ w₂ _ => _) (by decide +kernel) (by decide)

example : ∃ w₁ w₂, FMI3.Stepped Roberts.model w₁ w₂ ∧
    (has Lens.roberts w₁.inst .float64 0 (.fin 0) && has Lens.roberts w₂.inst .float64 0 (.fin (11 / 1000000))) = true :=
  C27.stepped3 (emu := false) (era := false) (p := false) (pre := [.enterInitializationMode (.fin 0) false (.fin 0)])
    (ops := [.doStep (.fin 0) (.fin (1 / 1000000)) stepOut]) (q := fun w₁ w₂ => _)
    (by decide +kernel) (by simp [FMI3.Op.fn]) (by simp [FMI3.Interferes, FMI3.Op.fn]) (by decide)

/-- A ball that bounces in the 5th step, FMI 2.0: Model Exchange finds the event, and has handled it two steps later. -/
example : ∃ w₁ w₂ found, FMI2.Integrates BouncingBall.model w₁ w₂ 5 found ∧
    (has Lens.bouncingBall w₁.inst .float64 1 (.fin (1 / 100)) && has Lens.bouncingBall w₁.inst .float64 3 (.fin (-2)) &&
      has Lens.bouncingBall w₂.inst .float64 0 (.fin (5 / 1000)) && decide (found = true)) = true :=
  C27.integrates2 (pre := [.setupExperiment (.fin 0) false (.fin 0), .setReal (some [1, 3]) 2 (some [.fin (1 / 100), .fin (-2)]),
    .enterInitializationMode]) (vrs := [1, 3]) (p := fun w₁ w₂ found => _) (by decide +kernel) (by decide)

example : ∃ w₁ w₂ found, FMI2.Integrates BouncingBall.model w₁ w₂ 7 found ∧
    (has Lens.bouncingBall w₁.inst .float64 1 (.fin (1 / 100)) && has Lens.bouncingBall w₁.inst .float64 3 (.fin (-2)) &&
      has Lens.bouncingBall w₂.inst .float64 0 (.fin (7 / 1000)) &&
      has Lens.bouncingBall w₂.inst .float64 3 (.fin (Ball.next^[7] ⟨1 / 100, -2, -981 / 100, 7 / 10⟩).v) && decide (found = false)) = true :=
  C27.integrates2 (pre := [.setupExperiment (.fin 0) false (.fin 0), .setReal (some [1, 3]) 2 (some [.fin (1 / 100), .fin (-2)]),
    .enterInitializationMode]) (vrs := [1, 3]) (p := fun w₁ w₂ found => _) (by decide +kernel) (by decide)

example : ∃ w₁ w₂ found, FMI3.Integrates BouncingBall.model w₁ w₂ 7 found ∧
    (has Lens.bouncingBall w₁.inst .float64 1 (.fin (1 / 100)) && has Lens.bouncingBall w₁.inst .float64 3 (.fin (-2)) &&
      has Lens.bouncingBall w₂.inst .float64 0 (.fin (7 / 1000)) &&
      has Lens.bouncingBall w₂.inst .float64 3 (.fin (Ball.next^[7] ⟨1 / 100, -2, -981 / 100, 7 / 10⟩).v) && decide (found = false)) = true :=
  C27.integrates3 (pre := [.set .float64 (some [1, 3]) 2 (some [.fin (1 / 100), .fin (-2)]) 2, .enterInitializationMode (.fin 0) false (.fin 0)])
    (vrs := [1, 3]) (p := fun w₁ w₂ found => _) (by decide +kernel) (by decide)

/-- The same ball in Co-Simulation. -/
example : ∃ w₁ w₂, FMI2.Stepped BouncingBall.model w₁ w₂ ∧
    (has Lens.bouncingBall w₁.inst .float64 1 (.fin (1 / 100)) && has Lens.bouncingBall w₁.inst .float64 3 (.fin (-2)) &&
      has Lens.bouncingBall w₂.inst .float64 0 (.fin (7 / 1000)) &&
      has Lens.bouncingBall w₂.inst .float64 3 (.fin (Ball.next^[7] ⟨1 / 100, -2, -981 / 100, 7 / 10⟩).v)) = true :=
  C27.stepped2 (pre := [.setupExperiment (.fin 0) false (.fin 0), .setReal (some [1, 3]) 2 (some [.fin (1 / 100), .fin (-2)]),
    .enterInitializationMode]) (ops := [.doStep (.fin 0) (.fin (3 / 1000)), .doStep (.fin (3 / 1000)) (.fin (4 / 1000))])
    (p := fun w₁ w₂ => _) (by decide +kernel) (by simp [FMI2.Interferes, FMI2.Op.fn]) (by decide)

example : ∃ w₁ w₂, FMI3.Stepped BouncingBall.model w₁ w₂ ∧
    (has Lens.bouncingBall w₁.inst .float64 1 (.fin (1 / 100)) && has Lens.bouncingBall w₁.inst .float64 3 (.fin (-2)) &&
      has Lens.bouncingBall w₂.inst .float64 0 (.fin (7 / 1000)) &&
      has Lens.bouncingBall w₂.inst .float64 3 (.fin (Ball.next^[7] ⟨1 / 100, -2, -981 / 100, 7 / 10⟩).v)) = true :=
  C27.stepped3 (emu := false) (era := false) (p := false)
    (pre := [.set .float64 (some [1, 3]) 2 (some [.fin (1 / 100), .fin (-2)]) 2, .enterInitializationMode (.fin 0) false (.fin 0)])
    (ops := [.doStep (.fin 0) (.fin (3 / 1000)) stepOut, .doStep (.fin (3 / 1000)) (.fin (4 / 1000)) stepOut]) (q := fun w₁ w₂ => _)
    (by decide +kernel) (by simp [FMI3.Op.fn]) (by simp [FMI3.Interferes, FMI3.Op.fn]) (by decide)

/-- The variable can be read and has the value. -/
def C27.reads (w : FMI2.World XRat (BouncingBall.Data XRat)) (r : Nat) (v : XRat) : Bool :=
  decide (w.inst.ctx.state ∈ FMI2.Spec.allowedIn .getReal) && decide (r < 8) && has Lens.bouncingBall w.inst .float64 r v

theorem C27.of_reads {w : FMI2.World XRat (BouncingBall.Data XRat)} {r : Nat} {v : XRat} (h : C27.reads w r v = true) :
    FMI2.ReadsReal BouncingBall.model w r v := by
  simp only [C27.reads, has, Bool.and_eq_true, decide_eq_true_eq] at h
  obtain ⟨⟨h1, h2⟩, h3⟩ := h
  have := FMI2.reads_lens Lens.bouncingBall (t := .float64) (r := r) (by simp; omega) (.inl rfl) h1
  rwa [h3] at this

/-- The hypothesis of C27 about the ball is needed: the importer for Model Exchange does not look for state events in the step after
an event. A ball that starts below the ground, rises above it and falls back in the next step bounces in Co-Simulation,
but not in Model Exchange. -/
theorem C27_below_ground : ∃ w₁ w₂ c₁ c₂ : FMI2.World XRat (BouncingBall.Data XRat),
    FMI2.Integrates BouncingBall.model w₁ w₂ 2 false ∧ FMI2.Stepped BouncingBall.model c₁ c₂ ∧
    FMI2.ReadsBall w₁ ⟨-1 / 1000, 3 / 2, -3000, 7 / 10⟩ ∧ FMI2.ReadsBall c₁ ⟨-1 / 1000, 3 / 2, -3000, 7 / 10⟩ ∧
    FMI2.ReadsReal BouncingBall.model w₁ 0 (.fin 0) ∧ FMI2.ReadsReal BouncingBall.model c₁ 0 (.fin 0) ∧
    FMI2.ReadsReal BouncingBall.model w₂ 0 (.fin (1 / 500)) ∧ FMI2.ReadsReal BouncingBall.model c₂ 0 (.fin (1 / 500)) ∧
    FMI2.ReadsReal BouncingBall.model w₂ 3 (.fin (-9 / 2)) ∧ FMI2.ReadsReal BouncingBall.model c₂ 3 (.fin (63 / 20)) := by
  obtain ⟨w₁, w₂, found, h1, h2⟩ := C27.integrates2 (m := BouncingBall.model) (pre := [.setupExperiment (.fin 0) false (.fin 0),
      .setReal (some [1, 3, 5]) 3 (some [.fin (-1 / 1000), .fin (3 / 2), .fin (-3000)]), .enterInitializationMode])
    (vrs := [1]) (n := 2) (p := fun w₁ w₂ found => C27.reads w₁ 0 (.fin 0) && C27.reads w₁ 1 (.fin (-1 / 1000)) &&
      C27.reads w₁ 3 (.fin (3 / 2)) && C27.reads w₁ 5 (.fin (-3000)) && C27.reads w₁ 6 (.fin (7 / 10)) &&
      C27.reads w₂ 0 (.fin (1 / 500)) && C27.reads w₂ 3 (.fin (-9 / 2)) && !found) (by decide +kernel) (by decide)
  obtain ⟨c₁, c₂, h3, h4⟩ := C27.stepped2 (m := BouncingBall.model) (pre := [.setupExperiment (.fin 0) false (.fin 0),
      .setReal (some [1, 3, 5]) 3 (some [.fin (-1 / 1000), .fin (3 / 2), .fin (-3000)]), .enterInitializationMode])
    (ops := [.doStep (.fin 0) (.fin (1 / 500))]) (p := fun w₁ w₂ => C27.reads w₁ 0 (.fin 0) && C27.reads w₁ 1 (.fin (-1 / 1000)) &&
      C27.reads w₁ 3 (.fin (3 / 2)) && C27.reads w₁ 5 (.fin (-3000)) && C27.reads w₁ 6 (.fin (7 / 10)) &&
      C27.reads w₂ 0 (.fin (1 / 500)) && C27.reads w₂ 3 (.fin (63 / 20))) (by decide +kernel)
    (by simp [FMI2.Interferes, FMI2.Op.fn]) (by decide)
  simp only [Bool.and_eq_true, Bool.not_eq_true'] at h2 h4
  obtain ⟨⟨⟨⟨⟨⟨⟨a0, a1⟩, a3⟩, a5⟩, a6⟩, b0⟩, b3⟩, rfl⟩ := h2
  obtain ⟨⟨⟨⟨⟨⟨a0', a1'⟩, a3'⟩, a5'⟩, a6'⟩, b0'⟩, b3'⟩ := h4
  exact ⟨w₁, w₂, c₁, c₂, h1, h3, ⟨C27.of_reads a1, C27.of_reads a3, C27.of_reads a5, C27.of_reads a6⟩,
    ⟨C27.of_reads a1', C27.of_reads a3', C27.of_reads a5', C27.of_reads a6'⟩, C27.of_reads a0, C27.of_reads a0', C27.of_reads b0,
    C27.of_reads b0', C27.of_reads b3, C27.of_reads b3'⟩

end examples

end Verif
