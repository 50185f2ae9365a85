import Verif.Lemmas.Frozen

/-!
# What the programs for Model Exchange record, with the macros `NX` and `NZ` as they are meant
-/

set_option linter.unusedSectionVars false

namespace Verif
namespace Importer.Euler
variable {F D W V β : Type} [Arith F] [HasInf F] {m : Model F D}

/-- A call that does not succeed leads to `Bad`. -/
structure Signals (api : Api F W) (Bad : W → Prop) : Prop where
  getDerivatives : ∀ {w l n w' st b}, api.getDerivatives w l n = .ret (w', st, b) → st ≠ .OK → Bad w'
  getStates : ∀ {w l n w' st b}, api.getStates w l n = .ret (w', st, b) → st ≠ .OK → Bad w'
  getNominals : ∀ {w l n w' st b}, api.getNominals w l n = .ret (w', st, b) → st ≠ .OK → Bad w'
  getIndicators : ∀ {w l n w' st b}, api.getIndicators w l n = .ret (w', st, b) → st ≠ .OK → Bad w'
  setStates : ∀ {w l n w' st b}, api.setStates w l n = .ret (w', st, b) → st ≠ .OK → Bad w'
  setTime : ∀ {w t w' st b}, api.setTime w t = .ret (w', st, b) → st ≠ .OK → Bad w'
  enterEventMode : ∀ {w w' st b}, api.enterEventMode w = .ret (w', st, b) → st ≠ .OK → Bad w'
  enterContinuousTimeMode : ∀ {w w' st b}, api.enterContinuousTimeMode w = .ret (w', st, b) → st ≠ .OK → Bad w'
  update : ∀ {w i w' st b}, api.update w i = .ret (w', st, b) → st ≠ .OK → Bad w'
  completed : ∀ {w x y w' st b}, api.completed w x y = .ret (w', st, b) → st ≠ .OK → Bad w'
  record : ∀ {w w' st b}, api.record w = .ret (w', st, b) → st ≠ .OK → Bad w'

/-- The program has gone on, or it has stopped after a failed call, or with `Rd`. -/
theorem CALL_end {Q : Prop} {s s' : Sim F W} {r : Outcome (W × Status × β)} {k : Sim F W → β → Result F W} {Bad : W → Prop} {q : Bool}
    (h : CALL s r k = .ret (q, s')) (hb : ∀ {w st b}, r = .ret (w, st, b) → st ≠ .OK → Bad w)
    (hk : ∀ w b, r = .ret (w, .OK, b) → k { s with w := w } b = .ret (q, s') → Q ∨ Bad s'.w) : Q ∨ Bad s'.w := by
  unfold CALL at h
  obtain ⟨⟨w, st, b⟩, e, h⟩ := Outcome.bind_eq_ret.1 h
  simp only at h
  split at h
  · next hs => subst hs; exact hk w b e h
  · next hs => cases h; exact .inr (hb e hs)

variable {o : Ode m} {api : Api F W} {inst : W → Comp F D} {Rd : W → Prop} {ev : D → D} {I : EventInfo F → Prop}
  {K : D → F → Prop} {cfg : Config F} {Bad : W → Prop}

theorem iterate_end (L : Laws o api inst Rd ev I K) (S : Signals api Bad) {k : Sim F W → Bool → Bool → Result F W} {q : Bool} {fuel : Nat} :
    ∀ {s s' : Sim F W} {d : D} {nom val}, iterate api k fuel s nom val = .ret (q, s') → At o inst Rd s d →
    (∀ s1 nom1 val1, k s1 nom1 val1 = .ret (q, s') → At o inst Rd s1 (ev d) → I s1.info → Alone s s1 →
      (val1 = false → val = false ∧ o.states (ev d) = o.states d) → Rd s'.w ∨ Bad s'.w) → Rd s'.w ∨ Bad s'.w := by
  induction fuel with
  | zero => intro s s' d nom val h; cases h
  | succ fuel ih =>
    intro s s' d nom val h ha hk
    unfold iterate at h
    refine CALL_end h S.update fun w i e h => ?_
    obtain ⟨h1, h2, h3, h4, h5⟩ := L.update ha.rd ha.data e
    simp only at h
    have hat : At o inst Rd { s with w := w, info := i } (ev d) :=
      ⟨h1, h2.trans ha.time, h3, ⟨ha.arr.x, ha.arr.derX, ha.arr.z, ha.arr.previousZ⟩⟩
    split at h
    · cases h; exact .inl h3
    · split at h
      · refine ih h hat fun s1 nom1 val1 k1 k2 k3 k4 k5 => ?_
        rw [L.idem] at k2 k5
        refine hk s1 nom1 val1 k1 k2 k3 ⟨k4.time, k4.step, k4.x, k4.derX, k4.z, k4.previousZ, k4.stateEvent⟩ fun hv => ?_
        obtain ⟨hv, -⟩ := k5 hv
        simp only [Bool.or_eq_false_iff] at hv
        exact ⟨hv.1, h5 hv.2⟩
      · exact hk _ _ _ h hat h4 ⟨rfl, rfl, rfl, rfl, rfl, rfl, rfl⟩ fun hv => by
          simp only [Bool.or_eq_false_iff] at hv; exact ⟨hv.1, h5 hv.2⟩

theorem handle_end (L : Laws o api inst Rd ev I K) (S : Signals api Bad) (hc : cfg.For o) (hx : 0 < o.nx) {fuel : Nat} {s s' : Sim F W} {d : D}
    {q : Bool} {k : Sim F W → Result F W} (h : handle api cfg fuel s k = .ret (q, s')) (ha : At o inst Rd s d) (hs : s.x = o.states d)
    (hK : K (ev d) s.time) (hk : ∀ s1, k s1 = .ret (q, s') → At o inst Rd s1 (ev d) → s1.x = o.states (ev d) → s1.time = s.time → s1.step = s.step →
      I s1.info → Rd s'.w ∨ Bad s'.w) : Rd s'.w ∨ Bad s'.w := by
  unfold handle at h
  refine CALL_end h S.enterEventMode fun w u e h => ?_
  have ha := ha.near (L.enterEventMode ha.rd e)
  refine iterate_end L S h ha fun s1 nom val h ha hi al hv => ?_
  refine CALL_end h S.enterContinuousTimeMode fun w u e h => ?_
  have ha := ha.near (L.enterContinuousTimeMode ha.rd e)
  refine CALL_end h S.record fun w u e h => ?_
  have ha := ha.near (L.record ha.rd ha.data (by rw [ha.time]; exact al.time.symm ▸ hK) e)
  simp only [hc.nx, gt_iff_lt, hx, decide_true, Bool.true_and] at h
  have key : ∀ s1 : Sim F W, At o inst Rd s1 (ev d) → s1.x = o.states (ev d) → s1.time = s.time → s1.step = s.step → I s1.info →
      (if nom = true then CALL s1 (api.getNominals s1.w s1.nominals o.nx) fun s n => k { s with nominals := n } else k s1) =
        .ret (q, s') → Rd s'.w ∨ Bad s'.w := by
    intro s1 ha hx ht h1 hi h
    split at h
    · refine CALL_end h S.getNominals fun w l e h => ?_
      have hb := ha.near (L.getNominals ha.rd e)
      exact hk _ h ⟨hb.data, hb.time, hb.rd, ⟨hb.arr.x, hb.arr.derX, hb.arr.z, hb.arr.previousZ⟩⟩ hx ht h1 hi
    · exact hk s1 h ha hx ht h1 hi
  split at h
  · refine CALL_end h S.getStates fun w l e h => ?_
    obtain ⟨ha, hl⟩ := getStates_at L ha hx e
    exact key _ ha hl al.time al.step hi h
  · next hf =>
    refine key _ ha ?_ al.time al.step hi h
    show s1.x = _
    rw [al.x, (hv (by simpa using hf)).2]
    exact hs

theorem finish_end (L : Laws o api inst Rd ev I K) (S : Signals api Bad) {q : Bool} {s s' : Sim F W} {d : D} (h : finish api cfg s = .ret (q, s'))
    (ha : At o inst Rd s d) (hK : K d s.time) : Rd s'.w ∨ Bad s'.w := by
  unfold finish at h
  refine CALL_end h S.completed fun w b e h => ?_
  obtain ⟨h1, h2, rfl⟩ := L.completed ha.rd e
  have hb := ha.near ⟨h1, h2⟩
  simp only at h
  split at h
  · cases h; exact .inl hb.rd
  · refine CALL_end h S.record fun w b e h => ?_
    cases h
    exact .inl (L.record hb.rd hb.data (by rw [hb.time]; exact hK) e).2

theorem advance_end (L : Laws o api inst Rd ev I K) (S : Signals api Bad) (hc : cfg.For o) (hx : 0 < o.nx) {occurred q : Bool} {s s' : Sim F W} {d : D}
    (h : advance api cfg occurred s = .ret (q, s')) (ha : At o inst Rd s d) (hs : s.x = o.states d)
    (hK : K (o.euler d) (Arith.lit ((((s.step + 1) % 2 ^ 64 : Nat)) : Rat) *. m.h)) : Rd s'.w ∨ Bad s'.w := by
  unfold advance at h
  simp only [hc.nx, gt_iff_lt, if_pos hx] at h
  refine CALL_end h S.getDerivatives fun w dx e h => ?_
  obtain ⟨h1, h2, h3⟩ := L.getDerivatives hx ha.rd ha.arr.derX e
  have hb := ha.near ⟨h1, h2⟩
  rw [derivs_congr ha.data] at h3
  refine CALL_end h S.setTime fun w1 u e h => ?_
  obtain ⟨k1, k2, k3⟩ := L.setTime hb.rd e
  refine CALL_end h S.setStates fun w2 u e h => ?_
  have hel : (eulerUpdate cfg.h o.nx s.x dx).length = o.nx := by rw [eulerUpdate_length]; exact ha.arr.x
  obtain ⟨l1, l2, l3⟩ := L.setStates hx k3 hel e
  have he : o.euler d = o.upd d (eulerUpdate cfg.h o.nx s.x dx) := by
    unfold Ode.euler
    rw [if_neg (by omega), hs, h3, hc.h]
  have hd : o.calc' (inst w2).mv.data = o.calc' (o.euler d) := by
    rw [l1, he]
    exact upd_congr (k1.trans hb.data) _
  have hdl : dx.length = o.nx := by rw [h3]; exact o.lenD d
  rw [hc.h] at h k2
  unfold detect at h
  simp only [hc.nz, gt_iff_lt] at h
  split at h
  · next hz =>
    split at h
    · refine CALL_end h S.getIndicators fun w3 z e3 h => ?_
      obtain ⟨n1, n2, n3⟩ := L.getIndicators hz l3 (by exact ha.arr.previousZ) e3
      exact finish_end (d := o.euler d) L S h
        ⟨n1.data.trans hd, n1.time.trans (l2.trans k2), n2, ⟨by rw [← hc.h]; exact hel, hdl, ha.arr.z, by rw [n3]; exact o.lenZ _⟩⟩ hK
    · refine CALL_end h S.getIndicators fun w3 z e3 h => ?_
      obtain ⟨n1, n2, n3⟩ := L.getIndicators hz l3 (by exact ha.arr.z) e3
      exact finish_end (d := o.euler d) L S h
        ⟨n1.data.trans hd, n1.time.trans (l2.trans k2), n2, ⟨by rw [← hc.h]; exact hel, hdl, by rw [n3]; exact o.lenZ _,
          by rw [n3]; exact o.lenZ _⟩⟩ hK
  · exact finish_end (d := o.euler d) L S h ⟨hd, l2.trans k2, l3, ⟨by rw [← hc.h]; exact hel, hdl, ha.arr.z, ha.arr.previousZ⟩⟩ hK

/-- However a pass ends, `Rd` holds unless a call has failed. -/
theorem pass_end (L : Laws o api inst Rd ev I K) (S : Signals api Bad) (hc : cfg.For o) (hx : 0 < o.nx) {fuel : Nat} {q : Bool} {s s' : Sim F W} {d : D}
    (h : pass api cfg fuel s = .ret (q, s')) (ha : Inv o inst Rd s d)
    (hE : eventOccurred s = true → K (ev d) s.time)
    (hK : K (o.euler (if eventOccurred s then ev d else d)) (Arith.lit ((((s.step + 1) % 2 ^ 64 : Nat)) : Rat) *. m.h)) :
    Rd s'.w ∨ Bad s'.w := by
  unfold pass at h
  split at h
  · cases h; exact .inl ha.rd
  · simp only at h
    split at h
    · next ho =>
      refine handle_end L S hc hx h ha.toAt ha.x (hE ho) fun s1 h h1 h2 h3 h4 _ => ?_
      split at h
      · cases h; exact .inl h1.rd
      · exact advance_end L S hc hx h h1 h2 (by rw [h4]; rw [if_pos ho] at hK; exact hK)
    · next ho =>
      split at h
      · cases h; exact .inl ha.rd
      · exact advance_end L S hc hx h ha.toAt ha.x (by rw [if_neg ho] at hK; exact hK)

/-- The initialisation. -/
theorem initial_end (L : Laws o api inst Rd ev I K) (S : Signals api Bad) (hc : cfg.For o) (hx : 0 < o.nx) {fuel : Nat} {q : Bool} {s s' : Sim F W} {d : D}
    (h : initial api cfg fuel s = .ret (q, s')) (ha : At o inst Rd s d) (hK : K (ev d) s.time) : Rd s'.w ∨ Bad s'.w := by
  unfold initial at h
  refine iterate_end L S h ha fun s1 nom val h ha hi al hv => ?_
  refine CALL_end h S.enterContinuousTimeMode fun w u e h => ?_
  have ha := ha.near (L.enterContinuousTimeMode ha.rd e)
  simp only [hc.nx, hc.nz, gt_iff_lt, if_pos hx] at h
  have key : ∀ s1 : Sim F W, At o inst Rd s1 (ev d) → s1.time = s.time →
      (CALL s1 (api.getStates s1.w s1.x o.nx) fun s x => CALL { s with x := x } (api.getNominals s.w s.nominals o.nx) fun s n =>
        CALL { s with nominals := n } (api.record s.w) fun s _ => .ret (true, { s with step := 0 })) = .ret (q, s') →
      Rd s'.w ∨ Bad s'.w := by
    intro s1 ha ht h
    refine CALL_end h S.getStates fun w l e h => ?_
    obtain ⟨ha, hl⟩ := getStates_at L ha hx e
    refine CALL_end h S.getNominals fun w l e h => ?_
    have ha := ha.near (L.getNominals ha.rd e)
    refine CALL_end h S.record fun w l e h => ?_
    cases h
    exact .inl (L.record ha.rd ha.data (by rw [ha.time]; exact ht ▸ hK) e).2
  split at h
  · next hpos =>
    refine CALL_end h S.getIndicators fun w l e h => ?_
    obtain ⟨n1, n2, n3⟩ := L.getIndicators hpos ha.rd ha.arr.previousZ e
    have hb := ha.near ⟨n1, n2⟩
    exact key { s1 with w := w, previousZ := l }
      ⟨hb.data, hb.time, hb.rd, ⟨hb.arr.x, hb.arr.derX, hb.arr.z, by rw [n3]; exact o.lenZ _⟩⟩ al.time h
  · exact key { s1 with w := w } ha al.time h

/-- The program ends in one of the passes. -/
theorem passes_last {fuel n : Nat} {s s' : Sim F W} (h : passes api cfg fuel n s = .ret (false, s')) :
    ∃ k < n, ∃ s1, passes api cfg fuel k s = .ret (true, s1) ∧ pass api cfg fuel s1 = .ret (false, s') := by
  induction n with
  | zero => cases h
  | succ n ih =>
    unfold passes at h
    obtain ⟨⟨b, s1⟩, e, h⟩ := Outcome.bind_eq_ret.1 h
    cases b
    · cases h
      obtain ⟨k, hk, r⟩ := ih e
      exact ⟨k, by omega, r⟩
    · exact ⟨n, by omega, s1, e, h⟩

theorem passes_stay {fuel n : Nat} {s s' : Sim F W} (h : passes api cfg fuel n s = .ret (false, s')) {n' : Nat} (hn : n ≤ n') :
    passes api cfg fuel n' s = .ret (false, s') := by
  induction hn with
  | refl => exact h
  | step _ ih => unfold passes; rw [ih]; rfl

theorem simulate_stay {fuel n : Nat} {w : W} {s' : Sim F W} (h : simulate api cfg fuel n w = .ret (false, s')) {n' : Nat} (hn : n ≤ n') :
    simulate api cfg fuel n' w = .ret (false, s') := by
  unfold simulate at h ⊢
  obtain ⟨⟨b, s1⟩, e, h⟩ := Outcome.bind_eq_ret.1 h
  rw [e]
  cases b
  · exact h
  · exact passes_stay h hn

/-- However the program ends, `Rd` holds unless a call has failed. `H`: what holds at the begin of the passes. -/
theorem simulate_end (L : Laws o api inst Rd ev I K) (S : Signals api Bad) (hc : cfg.For o) (hx : 0 < o.nx) {fuel n : Nat} {w : W} {s' : Sim F W}
    (h : simulate api cfg fuel n w = .ret (false, s')) (ht : (inst w).ctx.time = Arith.lit 0) (hr : Rd w) (hK : K (ev (inst w).mv.data) (Arith.lit 0))
    (H : ∀ s0, initial api cfg fuel (.start cfg w) = .ret (true, s0) → ∀ k < n, ∀ s, passes api cfg fuel k s0 = .ret (true, s) →
      ∃ d, Inv o inst Rd s d ∧ (eventOccurred s = true → K (ev d) s.time) ∧
        K (o.euler (if eventOccurred s then ev d else d)) (Arith.lit ((((s.step + 1) % 2 ^ 64 : Nat)) : Rat) *. m.h)) :
    Rd s'.w ∨ Bad s'.w := by
  have ha : At o inst Rd (.start cfg w) (inst w).mv.data :=
    ⟨rfl, ht, hr, ⟨by simp [Sim.start, hc.nx], by simp [Sim.start, hc.nx], by simp [Sim.start, hc.nz], by simp [Sim.start, hc.nz]⟩⟩
  unfold simulate at h
  obtain ⟨⟨b, s0⟩, e, h⟩ := Outcome.bind_eq_ret.1 h
  cases b
  · cases h
    exact initial_end L S hc hx e ha hK
  · obtain ⟨k, hk, s1, e1, h⟩ := passes_last h
    obtain ⟨d, h1, h2, h3⟩ := H s0 e k hk s1 e1
    exact pass_end L S hc hx h h1 h2 h3

/-! ## The output file -/

/-- The rows show values `v` of data with `K`. -/
def Shows (inst : W → Comp F D) (Rd : W → Prop) (K : D → F → Prop) (v : D → List V) (r : Run F W V) : Prop :=
  Rd r.w ∧ r.time = (inst r.w).ctx.time ∧ ∀ row ∈ r.rows, ∃ d, K d row.time ∧ row.values = v d

theorem Signals.watch (api : Api F W) (record : W → Outcome (W × Status × List V)) : Signals (watch api record) fun r => r.status ≠ .OK := by
  constructor
  case record =>
    intro w w' st b e h
    obtain ⟨⟨w1, s1, v1⟩, -, e⟩ := Outcome.bind_eq_ret.1 e
    cases e
    exact h
  all_goals
    intros
    rename_i e h
    obtain ⟨⟨w1, s1, v1⟩, -, e⟩ := Outcome.bind_eq_ret.1 e
    cases e
    exact h

theorem call_ok {s s' : Run F W V} {r : Outcome (W × Status × β)} {b : β} (h : s.call r = .ret (s', .OK, b)) :
    ∃ w, r = .ret (w, .OK, b) ∧ s' = { s with w := w, status := .OK } := by
  obtain ⟨⟨w1, s1, v1⟩, e, h⟩ := Outcome.bind_eq_ret.1 h
  cases h
  exact ⟨w1, e, rfl⟩

theorem Laws.watch {record : W → Outcome (W × Status × List V)} {v : D → List V} (L : Laws o api inst Rd ev I)
    (hv : ∀ {w w' d vs}, Rd w → o.calc' (inst w).mv.data = o.calc' d → record w = .ret (w', .OK, vs) →
      Near o (inst w) (inst w') ∧ Rd w' ∧ vs = v d) :
    Laws o (watch api record) (fun r => inst r.w) (Shows inst Rd K v) ev I K := by
  constructor
  case getDerivatives =>
    intro r l r' l' hx h hl e
    obtain ⟨w, e2, rfl⟩ := call_ok e
    obtain ⟨h1, h2, h3⟩ := L.getDerivatives hx h.1 hl e2
    exact ⟨h1, ⟨h2, h.2.1.trans h1.time.symm, h.2.2⟩, h3⟩
  case getStates =>
    intro r l r' l' hx h hl e
    obtain ⟨w, e2, rfl⟩ := call_ok e
    obtain ⟨h1, h2, h3⟩ := L.getStates hx h.1 hl e2
    exact ⟨h1, ⟨h2, h.2.1.trans h1.time.symm, h.2.2⟩, h3⟩
  case getIndicators =>
    intro r l r' l' hx h hl e
    obtain ⟨w, e2, rfl⟩ := call_ok e
    obtain ⟨h1, h2, h3⟩ := L.getIndicators hx h.1 hl e2
    exact ⟨h1, ⟨h2, h.2.1.trans h1.time.symm, h.2.2⟩, h3⟩
  case getNominals =>
    intro r l r' l' h e
    obtain ⟨w, e2, rfl⟩ := call_ok e
    obtain ⟨h1, h2⟩ := L.getNominals h.1 e2
    exact ⟨h1, h2, h.2.1.trans h1.time.symm, h.2.2⟩
  case setStates =>
    intro r l r' hx h hl e
    obtain ⟨w, e2, rfl⟩ := call_ok e
    obtain ⟨h1, h2, h3⟩ := L.setStates hx h.1 hl e2
    exact ⟨h1, h2, h3, h.2.1.trans h2.symm, h.2.2⟩
  case setTime =>
    intro r t r' h e
    obtain ⟨w, e2, rfl⟩ := call_ok e
    obtain ⟨h1, h2, h3⟩ := L.setTime h.1 e2
    exact ⟨h1, h2, h3, h2.symm, h.2.2⟩
  case enterEventMode =>
    intro r r' h e
    obtain ⟨w, e2, rfl⟩ := call_ok e
    obtain ⟨h1, h2⟩ := L.enterEventMode h.1 e2
    exact ⟨h1, h2, h.2.1.trans h1.time.symm, h.2.2⟩
  case enterContinuousTimeMode =>
    intro r r' h e
    obtain ⟨w, e2, rfl⟩ := call_ok e
    obtain ⟨h1, h2⟩ := L.enterContinuousTimeMode h.1 e2
    exact ⟨h1, h2, h.2.1.trans h1.time.symm, h.2.2⟩
  case completed =>
    intro r a b r' x h e
    obtain ⟨w, e2, rfl⟩ := call_ok e
    obtain ⟨h1, h2, h3⟩ := L.completed h.1 e2
    exact ⟨h1, ⟨h2, h.2.1.trans h1.time.symm, h.2.2⟩, h3⟩
  case record =>
    intro r r' d h hd hK e
    obtain ⟨⟨w, st, vs⟩, e2, e'⟩ := Outcome.bind_eq_ret.1 e
    cases e'
    obtain ⟨h1, h2, h3⟩ := hv h.1 hd e2
    refine ⟨h1, h2, h.2.1.trans h1.time.symm, fun row hrow => ?_⟩
    simp only [if_true, List.mem_append, List.mem_singleton] at hrow
    rcases hrow with hrow | rfl
    · exact h.2.2 row hrow
    · exact ⟨d, by rw [h.2.1]; exact hK, h3⟩
  case update =>
    intro r i r' i' d h hd e
    obtain ⟨w, e2, rfl⟩ := call_ok e
    obtain ⟨h1, h2, h3, h4, h5⟩ := L.update h.1 hd e2
    exact ⟨h1, h2, ⟨h3, h.2.1.trans h2.symm, h.2.2⟩, h4, h5⟩
  case idem => exact L.idem
  case info => exact L.info
  case states_upd => exact L.states_upd

/-- A program that starts at the data `d` records only data and times with `K`. -/
structure Tracks (o : Ode m) (ev : D → D) (I : EventInfo F → Prop) (K : D → F → Prop) (d : D) : Prop where
  run : ∀ {W : Type} {api : Api F W} {inst : W → Comp F D} {Rd : W → Prop} {cfg : Config F}, Laws o api inst Rd ev I K → cfg.For o → ∀ {w : W} {fuel : Nat},
    (inst w).ctx.time = Arith.lit 0 → o.calc' (inst w).mv.data = o.calc' d → Rd w → K (ev (inst w).mv.data) (Arith.lit 0) ∧
    ∀ s0, initial api cfg fuel (.start cfg w) = .ret (true, s0) → ∀ k, k + 1 < 2 ^ 64 → ∀ s, passes api cfg fuel k s0 = .ret (true, s) →
      ∃ d, Inv o inst Rd s d ∧ (eventOccurred s = true → K (ev d) s.time) ∧
        K (o.euler (if eventOccurred s then ev d else d)) (Arith.lit ((((s.step + 1) % 2 ^ 64 : Nat)) : Rat) *. m.h)

/-- Without events: the data after `k` Euler steps at the time `k h`. -/
def After (o : Ode m) (d : D) (e : D) (t : F) : Prop := ∃ k, t = timeAfter m.h k ∧ o.calc' e = o.calc' (o.steps k d)

theorem Tracks.still (o : Ode m) (hx : 0 < o.nx) (d : D) : Tracks o id (fun _ => True) (After o d) d := by
  refine ⟨fun {W api inst Rd cfg} L hc {w fuel} ht hd hr => ?_⟩
  have hK : ∀ n < 2 ^ 64, After o d (o.steps n (inst w).mv.data) (timeAfter m.h n) := fun n _ => ⟨n, rfl, o.steps_calc n hd⟩
  refine ⟨hK 0 (by decide), fun s0 h0 k hk s hs => ?_⟩
  obtain ⟨h1, h2, h3⟩ := passes_steps L hc hx hK ht hr h0 (by omega) hs
  refine ⟨_, h1, fun _ => by rw [h3]; exact hK k (by omega), ?_⟩
  have := hK (k + 1) hk
  rw [timeAfter, if_neg (by omega), o.steps_add k 1] at this
  rw [h2, Nat.mod_eq_of_lt hk]
  simp only [id, ite_self]
  exact this

/-- The ball: the times `k / 1000` with the ball after `k` steps, or after the fall of the last of them. -/
def OfBall (b : Ball) (e : BouncingBall.Data XRat) (t : XRat) : Prop :=
  ∃ k : Nat, (t = .fin (k * (1 / 1000)) ∧ e = .of (Ball.next^[k] b)) ∨ (t = .fin ((k + 1 : Nat) * (1 / 1000)) ∧ e = .of (Ball.next^[k] b).fall)

theorem Tracks.ball {b : Ball} (hf : BouncingBall.Flies b) :
    Tracks (BouncingBall.ode (F := XRat)) BouncingBall.landed (fun i => i.nextEventTimeDefined = false) (OfBall b) (.of b) := by
  refine ⟨fun {W api inst Rd cfg} L hc {w fuel} ht hd hr => ?_⟩
  have hd : (inst w).mv.data = .of b := hd
  have hK : ∀ n < 2 ^ 64, OfBall b (.of (Ball.next^[n] b)) (.fin (n * (1 / 1000))) ∧
      OfBall b (.of (Ball.next^[n] b).fall) (.fin ((n + 1 : Nat) * (1 / 1000))) := fun n _ => ⟨⟨n, .inl ⟨rfl, rfl⟩⟩, ⟨n, .inr ⟨rfl, rfl⟩⟩⟩
  refine ⟨?_, fun s0 h0 k hk s hs => ?_⟩
  · rw [hd, BouncingBall.landed_of, hf.bounce]
    refine ⟨0, .inl ⟨?_, rfl⟩⟩
    simp
  · obtain ⟨a, h1, h2, h3, h4, h5, h6⟩ := BouncingBall.passes_ball L hc hK (ht.trans (XRat.lit_eq _)) hd hf hr h0 (by omega) hs
    have hoc : eventOccurred s = s.stateEvent := by
      unfold eventOccurred
      rw [h3, h4, h5]
      have : ((HasInf.inf : XRat) <=. XRat.fin (0 + k * (1 / 1000))) = false := rfl
      rw [this]
      simp
    have hd1 : (if eventOccurred s then BouncingBall.landed (.of a) else .of a) = BouncingBall.Data.of (Ball.next^[k] b) := by
      rw [hoc, ← h6.eq, BouncingBall.landed_of]
      split <;> rfl
    refine ⟨_, h1, fun ho => ?_, ?_⟩
    · rw [if_pos ho] at hd1; rw [hd1, h3, zero_add]; exact (hK k (by omega)).1
    · rw [hd1, BouncingBall.euler_of, h2, Nat.mod_eq_of_lt hk]; exact (hK k (by omega)).2

end Importer.Euler

namespace FMI2
open Importer.CoSim
variable {F D : Type} [Arith F] [HasInf F] {m : Model F D} {p : Profile F D}

theorem AllOK.times (hk : OkOrError m) {fuel : Nat} {w w' : World F D} {ops : List (Op F)} {vs : List (Out F)}
    (h : AllOK (FMI2.step m fuel) w ops w' vs) (hp : ∀ op ∈ ops, ¬ Interferes op ∧ op.fn ≠ .doStep) : w'.inst.times = w.inst.times := by
  induction h with
  | nil => rfl
  | cons e _ ih =>
    rw [ih fun op h => hp op (List.mem_cons_of_mem _ h)]
    exact passive_times hk (hp _ List.mem_cons_self).1 (hp _ List.mem_cons_self).2 e

theorem started_time (hk : OkOrError m) {c : Comp F D} {stop : F} {w vs} (h : AllOK (FMI2.step m 0) (.fresh c)
    [.setupExperiment (Arith.lit 0) true stop, .enterInitializationMode, .exitInitializationMode] w vs) : w.inst.ctx.time = Arith.lit 0 := by
  cases h with
  | cons e h =>
    have h1 := step_times hk (by simp [Op.fn]) _ e
    simp only [timesAfter] at h1
    cases h with
    | cons e2 h =>
      have h2 := step_times hk (by simp [Op.fn]) _ e2
      simp only [timesAfter, ite_self] at h2
      have h3 := AllOK.times hk h (by simp [Interferes, Op.fn])
      rw [h2, h1] at h3
      exact congrArg Times.time h3

/-- What the rows show if `NX` and `NZ` are as meant. -/
theorem recordedME (hm : Describes m p) (o : Ode m) (hrd : m.ReadsUpTo o.calc') {ev I} (he : Importer.Euler.Events o ev I)
    (hnx : m.maxNX = o.nx) (hnz : m.maxNZ = o.nz) (hx : 0 < o.nx) {P : Program F (Op F)} (hh : P.h = m.h) (hr : ∀ op ∈ P.record, Gets m p op)
    {v : D → List (Out F)}
    (hv : ∀ {w w' vs d}, Readable w.inst → o.calc' w.inst.mv.data = o.calc' d → AllOK (FMI2.step m 0) w P.record w' vs → vs = v d)
    {K : D → F → Prop} {d : D} (hK : Importer.Euler.Tracks o ev I K d)
    {N : Nat} (hN : N + 1 < 2 ^ 64) (hstop : ∀ k ≤ N, (P.stopTime <=. timeAfter P.h k) = decide (k = N))
    {fuel n : Nat} (hf : 0 < fuel) (hn : N < n) (resource : Ptr UInt8)
    (hstart : ∀ c l, instantiate m (some "instance1") .modelExchange (some m.token) resource (some true) false true = (some c, l) →
      p.needs c.ctx ∧ o.calc' c.mv.data = o.calc' d) :
    ∃ rows, Importer.Euler.simulate2 m (.meant m) P fuel n resource = .ret (.OK, rows) ∧
      (∃ k ≤ N + 1, Covers (¬Importer.Euler.Eventless ⟨m.maxNX, m.maxNZ, P.h, P.stopTime, true⟩ (Endless m) N) (timeAfter P.h) k (rows.map Row.time) ∧
        (Timeless m → k = N + 1)) ∧
      ∀ row ∈ rows, ∃ d, K d row.time ∧ row.values = v d := by
  have hok := hm.ref.eff.okOrError
  obtain ⟨c, l, hc⟩ := createdME hm resource
  obtain ⟨hnc, hdc⟩ := hstart c l hc
  obtain ⟨w₀, vs, ha, ho⟩ := startedME hm hc hnc (stop := P.stopTime)
  have ht : c.ctx.typ = .modelExchange := (createModelInstance_ctx (show createModelInstance m false true false (some "instance1") (some m.token)
    resource false true .modelExchange = (some c, l) from hc)).1
  have hpass : ∀ op ∈ P.record, ¬ Interferes op ∧ op.fn ≠ .doStep := by
    intro op hop
    have := (hr op hop).1
    simp only [List.mem_cons, List.not_mem_nil, or_false] at this
    rcases this with h | h | h | h <;> simp [Interferes, h]
  have hpass' : ∀ op ∈ P.record, ¬ notPassive m op.fn := fun op hop => not_notPassive (hpass op hop).1 (hpass op hop).2 fun h => by
    have := (hr op hop).1
    rw [h] at this
    simp at this
  obtain ⟨s, e, hE⟩ := Importer.Euler.simulate_succeeds
    (drivesME hm ht hnc hr (cfg := ⟨m.maxNX, m.maxNZ, P.h, P.stopTime, true⟩) (.inr rfl) (.inr rfl)) hf (by omega) hstop ho (Nat.lt_succ_self N)
  have L : Importer.Euler.Laws o (Importer.Euler.watch (Importer.Euler.api2 m []) (calls (FMI2.step m 0) P.record)) _ _ ev I K :=
    (Importer.Euler.laws2 o hm.ref.eff hrd he []).watch (K := K) (v := v) fun h1 h2 e => by
      have h3 := calls_allOK e
      exact ⟨⟨AllOK.kept hm.ref.eff hrd h3 hpass', congrArg Times.time (AllOK.times hok h3 hpass)⟩, AllOK.readable hok h3 hpass' h1, hv h1 h2 h3⟩
  have hd0 : o.calc' w₀.inst.mv.data = o.calc' d := (AllOK.kept hm.ref.eff hrd ha (by simp [notPassive, Op.fn])).trans hdc
  have ht0 := started_time hok ha
  have hcf : (⟨m.maxNX, m.maxNZ, P.h, P.stopTime, true⟩ : Importer.Euler.Config F).For o := ⟨hnx, hnz, hh⟩
  have hr0 : Importer.Euler.Shows (fun w : World F D => w.inst) (fun w => Readable w.inst) K v ⟨w₀, .OK, Arith.lit 0, []⟩ :=
    ⟨by
      show _ ∈ _
      rw [ho.state]; simp [Spec.allowedIn], ht0.symm, by simp⟩
  have hT := hK.run L hcf (w := ⟨w₀, .OK, Arith.lit 0, []⟩) (fuel := fuel) ht0 hd0 hr0
  have hR := (Importer.Euler.simulate_end L (.watch _ _) hcf hx e ht0 hr0 hT.1 fun s0 h0 k hk s hs => hT.2 s0 h0 k (by omega) s hs).resolve_right
    fun h => h hE.status
  have e := Importer.Euler.simulate_stay e (Nat.succ_le_of_lt hn)
  obtain ⟨w', v', et⟩ := hE.mode
  obtain ⟨k, hk, hcov, hend⟩ := hE.rows
  refine ⟨s.w.rows, ?_, ⟨k, hk, hcov, fun hT => hend.resolve_right fun h => by have := (h.1 hT).2; rw [h.2] at this; cases this⟩, hR.2.2⟩
  unfold Importer.Euler.simulate2
  rw [hc]
  simp only []
  rw [CALLS_ok (api := api2 m 0 P.h) ha, show (⟨(Importer.Euler.Macros.meant m).nx, (Importer.Euler.Macros.meant m).nz, P.h, P.stopTime, true⟩ :
    Importer.Euler.Config F) = ⟨m.maxNX, m.maxNZ, P.h, P.stopTime, true⟩ from rfl, e]
  simp only [Outcome.ret_bind, Bool.false_eq_true, if_false, hE.status]
  exact tearDown_ok (api := api2 m 0 P.h) et

end FMI2
namespace FMI3
open Importer.CoSim
variable {F D : Type} [Arith F] [HasInf F] {m : Model F D} {p : Profile F D}

theorem AllOK.times (hk : OkOrError m) {fuel : Nat} {w w' : World F D} {ops : List (Op F)} {vs : List (Out F)}
    (h : AllOK (FMI3.step m fuel) w ops w' vs) (hp : ∀ op ∈ ops, ¬ Interferes op ∧ op.fn ≠ .doStep) : w'.inst.times = w.inst.times := by
  induction h with
  | nil => rfl
  | cons e _ ih =>
    rw [ih fun op h => hp op (List.mem_cons_of_mem _ h)]
    exact passive_times hk (hp _ List.mem_cons_self).1 (hp _ List.mem_cons_self).2 e

theorem started_time (hk : OkOrError m) {c : Comp F D} {stop : F} {w vs} (h : AllOK (FMI3.step m 0) (.fresh c)
    [.enterInitializationMode (Arith.lit 0) true stop, .exitInitializationMode] w vs) : w.inst.ctx.time = Arith.lit 0 := by
  cases h with
  | cons e h =>
    have h1 := step_times hk (by simp [Op.fn]) _ e
    simp only [timesAfter] at h1
    have h3 := AllOK.times hk h (by simp [Interferes, Op.fn])
    rw [h1] at h3
    exact congrArg Times.time h3

/-- What the rows show if `NX` and `NZ` are as meant. -/
theorem recordedME (hm : Describes m p) (o : Ode m) (hrd : m.ReadsUpTo o.calc') {ev I} (he : Importer.Euler.Events o ev I)
    (hnx : m.maxNX = o.nx) (hnz : m.maxNZ = o.nz) (hx : 0 < o.nx) (hme : m.modelExchange = true) {P : Program F (Op F)} (hh : P.h = m.h) (hr : ∀ op ∈ P.record, Gets m p op)
    {v : D → List (Out F)}
    (hv : ∀ {w w' vs d}, Reachable m .modelExchange w → o.calc' w.inst.mv.data = o.calc' d → AllOK (FMI3.step m 0) w P.record w' vs → vs = v d)
    {K : D → F → Prop} {d : D} (hK : Importer.Euler.Tracks o ev I K d)
    {N : Nat} (hN : N + 1 < 2 ^ 64) (hstop : ∀ k ≤ N, (P.stopTime <=. timeAfter P.h k) = decide (k = N))
    {fuel n : Nat} (hf : 0 < fuel) (hn : N < n) (resource : Ptr UInt8)
    (hstart : ∀ c l, instantiateModelExchange m (some "instance1") (some m.token) resource false true true = (some c, l) →
      p.needs c.ctx ∧ o.calc' c.mv.data = o.calc' d) :
    ∃ rows, Importer.Euler.simulate3 m (.meant m) P fuel n resource = .ret (.OK, rows) ∧
      (∃ k ≤ N + 1, Covers (¬Importer.Euler.Eventless ⟨m.maxNX, m.maxNZ, P.h, P.stopTime, false⟩ (Endless m) N) (timeAfter P.h) k (rows.map Row.time) ∧
        (Timeless m → k = N + 1)) ∧
      ∀ row ∈ rows, ∃ d, K d row.time ∧ row.values = v d := by
  have hok := hm.ref.eff.okOrError
  obtain ⟨c, l, hc⟩ := createdME hm hme resource
  obtain ⟨hnc, hdc⟩ := hstart c l hc
  obtain ⟨ht, w₀, vs, ha, ho⟩ := startedME hm hc hnc (stop := P.stopTime)
  have hpass : ∀ op ∈ P.record, ¬ Interferes op ∧ op.fn ≠ .doStep := by
    intro op hop
    obtain ⟨t, h⟩ := (hr op hop).1
    simp [Interferes, EndsSession, h]
  have hpass' : ∀ op ∈ P.record, ¬ notPassive m op.fn := fun op hop => not_notPassive (hpass op hop).1 (hpass op hop).2 fun h => by
    obtain ⟨t, h'⟩ := (hr op hop).1
    rw [h] at h'
    cases h'
  obtain ⟨s, e, hE⟩ := Importer.Euler.simulate_succeeds
    (drivesME hm ht hnc hr (cfg := ⟨m.maxNX, m.maxNZ, P.h, P.stopTime, false⟩) (.inr rfl) (.inr rfl)) hf (by omega) hstop ho (Nat.lt_succ_self N)
  have L : Importer.Euler.Laws o (Importer.Euler.watch (Importer.Euler.api3 m []) (calls (FMI3.step m 0) P.record)) _ _ ev I K :=
    (Importer.Euler.laws3 o hm.ref.eff hrd he .modelExchange []).watch (K := K) (v := v) fun h1 h2 e => by
      have h3 := calls_allOK e
      exact ⟨⟨AllOK.kept hm.ref.eff hrd h3 hpass', congrArg Times.time (AllOK.times hok h3 hpass)⟩, AllOK.reachable hok h3 h1, hv h1 h2 h3⟩
  have hd0 : o.calc' w₀.inst.mv.data = o.calc' d := (AllOK.kept hm.ref.eff hrd ha (by simp [notPassive, Op.fn])).trans hdc
  have ht0 := started_time hok ha
  have hcf : (⟨m.maxNX, m.maxNZ, P.h, P.stopTime, false⟩ : Importer.Euler.Config F).For o := ⟨hnx, hnz, hh⟩
  have hr0 : Importer.Euler.Shows (fun w : World F D => w.inst) (Reachable m .modelExchange) K v ⟨w₀, .OK, Arith.lit 0, []⟩ :=
    ⟨ho.reach, ht0.symm, by simp⟩
  have hT := hK.run L hcf (w := ⟨w₀, .OK, Arith.lit 0, []⟩) (fuel := fuel) ht0 hd0 hr0
  have hR := (Importer.Euler.simulate_end L (.watch _ _) hcf hx e ht0 hr0 hT.1 fun s0 h0 k hk s hs => hT.2 s0 h0 k (by omega) s hs).resolve_right
    fun h => h hE.status
  have e := Importer.Euler.simulate_stay e (Nat.succ_le_of_lt hn)
  obtain ⟨w', v', et⟩ := hE.mode
  obtain ⟨k, hk, hcov, hend⟩ := hE.rows
  refine ⟨s.w.rows, ?_, ⟨k, hk, hcov, fun hT => hend.resolve_right fun h => by have := (h.1 hT).2; rw [h.2] at this; cases this⟩, hR.2.2⟩
  unfold Importer.Euler.simulate3
  rw [hc]
  simp only []
  rw [CALLS_ok (api := api3 m 0 P.h) ha, show (⟨(Importer.Euler.Macros.meant m).nx, (Importer.Euler.Macros.meant m).nz, P.h, P.stopTime, false⟩ :
    Importer.Euler.Config F) = ⟨m.maxNX, m.maxNZ, P.h, P.stopTime, false⟩ from rfl, e]
  simp only [Outcome.ret_bind, Bool.false_eq_true, if_false, hE.status]
  exact tearDown_ok (api := api3 m 0 P.h) et

end FMI3
end Verif
