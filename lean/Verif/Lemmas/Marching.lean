import Verif.Lemmas.Driver
import Verif.Lemmas.DriverME
import Verif.Spec.Marching

/-! # The Co-Simulation programs with early return -/

set_option linter.unusedSectionVars false

namespace Verif
open Importer.CoSim

theorem Ahead.bound {t s : Rat} (h : Ahead t s) (h0 : 0 ≤ s) : t < 2 * s + 1 := by
  by_contra hc
  have := Reach.of_far (h := 0) (q := s) (t := t) (le_refl _) (by rw [abs_of_nonneg h0]; exact not_lt.1 hc)
  obtain ⟨h1, h2⟩ := this
  rw [add_zero] at h1 h2
  rcases h with h | h
  · linarith
  · exact h2 h

namespace FMI3

section
variable {F D : Type} [Arith F] {m : Model F D} {p : Profile F D}

/-- A step of the solver in an instance that returns early. -/
theorem iter_early {o : Ode m} (hl : Lawful m p) (ho : _root_.Verif.Ongoing p o) (hm : OkOrError m) {c c' : Comp F D} {s q} (hr : o.Ready c)
    (hera : c.earlyReturnAllowed = true) (hp : ¬p.over c.mv.data) (h : iter m c false = .ret (c', s, q)) (hs : s = .OK) :
    (q.2 = false → q.1 = false ∧ ¬p.over c'.mv.data) ∧ (c'.mv.terminateSimulation = false → ¬p.over c'.mv.data) ∧ (q.1 = true → ¬p.over c'.mv.data) ∧
    (q.2 = true → m.eventUpdate = none → c'.mv.terminateSimulation = true) := by
  subst hs
  have f := (iter_frame hm h).era.trans hera
  rcases iter_eq_ret hm h with ⟨-, c0, ehn0, c1, se, te, ep, e1, h⟩ | ⟨h, -⟩
  · have e0 : c0 = c ∧ ehn0 = false := by
      unfold pendingEvent at ep
      cases he : m.eventUpdate with
      | none => rw [he] at ep; cases ep; exact ⟨rfl, rfl⟩
      | some eu => rw [he] at ep; cases ep; exact ⟨rfl, rfl⟩
    obtain ⟨rfl, rfl⟩ := e0
    obtain ⟨c1', e1', r1, f1, -, hd, -⟩ := o.fixedStep_eq hr
    have hov : ¬p.over c1.mv.data := by
      rw [e1] at e1'
      cases e1'
      exact fun h => hp (ho.solver _ _ hd h)
    rcases h with ⟨-, rfl, rfl⟩ | ⟨h1, -, -, rfl, rfl⟩ | ⟨eu, h1, -, -, hi, rfl⟩
    · exact ⟨fun _ => ⟨rfl, hov⟩, fun _ => hov, fun _ => hov, fun h _ => h⟩
    · refine ⟨fun h => ?_, fun _ => hov, fun _ => hov, fun _ h => by rw [h] at h1; cases h1⟩
      simp [f] at h
    · refine ⟨fun h => by simp [f] at h, fun ht => ?_, fun h => by simp at h, fun _ h => by rw [h] at h1; cases h1⟩
      rw [e1] at e1'
      cases e1'
      exact (internalEvent_accepted hl ho hm h1 r1 hov hi).2.2 ht
  · cases h

theorem Loop.early {o : Ode m} (hl : Lawful m p) (ho : _root_.Verif.Ongoing p o) (hm : OkOrError m) {next : F} {c c' : Comp F D} {ehn n s e r}
    (h : Loop m next c ehn n c' s e r) (hr : o.Ready c) (hera : c.earlyReturnAllowed = true) (hehn : ehn = false) (hp : ¬p.over c.mv.data) :
    s = .OK → (c'.mv.terminateSimulation = false → ¬p.over c'.mv.data) ∧ (e = true → ¬p.over c'.mv.data) ∧
      (r = false → m.eventUpdate = none → c'.mv.terminateSimulation = true) := by
  induction h with
  | done h =>
    subst hehn
    rw [Bool.false_and, Bool.or_false] at h
    exact fun _ => ⟨fun _ => hp, fun _ => hp, fun h' => by rw [h] at h'; cases h'⟩
  | step _ e _ ih =>
    subst hehn
    obtain ⟨-, r, -⟩ := iter_ok hl ho hm hr (fun _ => ⟨rfl, hp⟩) e
    obtain ⟨h1, h2⟩ := (iter_early hl ho hm hr hera hp e rfl).1 rfl
    exact ih r ((iter_frame hm e).era.trans hera) h1 h2
  | leave _ e =>
    subst hehn
    obtain ⟨-, h1, h2, h3⟩ := iter_early hl ho hm hr hera hp e rfl
    exact fun _ => ⟨h1, h2, fun _ => h3 rfl⟩
  | error => intro h; cases h

end

section
variable {D : Type} {m : Model XRat D} {p : Profile XRat D} {c₀ : Comp XRat D}

/-- The instance at the time `t`. -/
structure Marching (m : Model XRat D) (c₀ : Comp XRat D) (hh stop : Rat) (mode : Mode) (t : Rat) (w : World XRat D) : Prop where
  alive : Alive m c₀ mode w
  ticks : Ticks hh 0 t w.inst
  clock : ∃ e, w.inst.clock = ⟨.fin e, .fin stop⟩ ∧ Close t e
  ahead : Ahead t stop

theorem Marching.of_times {hh stop t : Rat} {mode mode' : Mode} {w w' : World XRat D} (h : Marching m c₀ hh stop mode t w) (ha : Alive m c₀ mode' w')
    (ht : w'.inst.times = w.inst.times) : Marching m c₀ hh stop mode' t w' :=
  ⟨ha, h.ticks.of_times ht, by
    obtain ⟨e, h1, h2⟩ := h.clock
    exact ⟨e, (show w'.inst.clock = w.inst.clock from clock_of_times ht).trans h1, h2⟩, h.ahead⟩

/-- Getting and setting variables. -/
theorem Marching.access (hm : Describes m p) (hc : c₀.ctx.typ = .coSimulation) (hn : p.needs c₀.ctx) {hh stop t : Rat} {mode : Mode}
    {w : World XRat D} (h : Marching m c₀ hh stop mode t w) {op : Op XRat} (ha : Access m p mode op) (fuel : Nat) :
    ∃ w' o, FMI3.step m fuel w op = .ret (w', .OK, o) ∧ Marching m c₀ hh stop mode t w' ∧ (¬p.over w.inst.mv.data → ¬p.over w'.inst.mv.data) := by
  obtain ⟨w', o, e, k1, k2, k3⟩ := h.alive.access hm hc hn ha fuel
  exact ⟨w', o, e, h.of_times k1 k3, k2⟩

theorem Marching.accesses (hm : Describes m p) (hc : c₀.ctx.typ = .coSimulation) (hn : p.needs c₀.ctx) {hh stop t : Rat} {mode : Mode}
    {w : World XRat D} (h : Marching m c₀ hh stop mode t w) {ops : List (Op XRat)} (ha : ∀ op ∈ ops, Access m p mode op) (fuel : Nat) :
    ∃ w' vs, AllOK (FMI3.step m fuel) w ops w' vs ∧ Marching m c₀ hh stop mode t w' ∧ (¬p.over w.inst.mv.data → ¬p.over w'.inst.mv.data) := by
  obtain ⟨w', vs, h1, h2⟩ := AllOK.of_inv (call := FMI3.step m fuel) (os := ops)
    (Q := fun w' => Marching m c₀ hh stop mode t w' ∧ (¬p.over w.inst.mv.data → ¬p.over w'.inst.mv.data))
    (fun o ho w' hw => by
      obtain ⟨w'', o, e, k, k'⟩ := hw.1.access hm hc hn (ha o ho) fuel
      exact ⟨w'', o, e, k, fun h => k' (hw.2 h)⟩) ⟨h, id⟩
  exact ⟨w', vs, h1, h2⟩

theorem Describes.step_pos (hm : Describes m p) {hh : Rat} (hh' : m.h = .fin hh) : 0 < hh := by
  cases hm <;> cases hh' <;> decide +kernel

/-- A step from the time `t` on. -/
theorem Marching.doStep (hm : Describes m p) (hn : p.needs c₀.ctx) (hera : c₀.earlyReturnAllowed = true)
    {hh stop : Rat} (hh' : m.h = .fin hh) {q : Nat} (hq : 0 < q) {fuel K : Nat}
    (hK : 2 * stop + 1 ≤ K * hh) (hb : K + fuel < 2 ^ 64) (hf : K < fuel) {t : Rat} {w : World XRat D}
    (h : Marching m c₀ hh stop .stepMode t w) (ho : ¬p.over w.inst.mv.data) (ht : t + q * hh ≤ stop) :
    ∃ w' ehn term er k, FMI3.step m fuel w (doStep3 (.fin t) (.fin (q * hh))) = .ret (w', .OK, .step ⟨some ehn, some term, er, some (.fin (t + (k : Nat) * hh))⟩) ∧
      0 < k ∧ Ahead (t + k * hh) (t + q * hh) ∧ (t + k * hh < t + q * hh → m.eventUpdate ≠ none ∨ term = true) ∧ Marching m c₀ hh stop .stepMode (t + k * hh) w' ∧
      (term = false → ¬p.over w'.inst.mv.data) ∧ (ehn = true → ¬p.over w'.inst.mv.data) ∧ w'.inst.mv.terminateSimulation = term ∧
      w'.inst.nSteps = w.inst.nSteps + k := by
  have hok := hm.ref.eff.okOrError
  have hh0 := hm.step_pos hh'
  obtain ⟨e₀, hclk, hclose⟩ := h.clock
  have ht0 : 0 ≤ t := by rw [h.ticks.grid]; have : (0 : Rat) ≤ w.inst.nSteps * hh := mul_nonneg (by exact_mod_cast Nat.zero_le _) hh0.le; linarith
  have hd0 : 0 < (q : Rat) * hh := mul_pos (by exact_mod_cast hq) hh0
  have hnK : w.inst.nSteps ≤ K := by
    have h1 : (w.inst.nSteps : Rat) * hh ≤ K * hh := by have := h.ticks.grid; linarith
    exact_mod_cast le_of_mul_le_mul_right h1 hh0
  obtain ⟨w', o, e⟩ := doStep_legal hm h.alive.reach (hm.needs_kept h.alive.kept.inst.1.2.1 hn) h.alive.state ho (a := t) (d := q * hh)
    (out := ⟨some false, some false, some false, some (.fin t)⟩) (by simp [WellFormed])
    (.mk (e := e₀) (by rw [hclk]) hclose hd0 (.inr ⟨stop, by rw [hclk], .inl ht⟩)) hh' h.ticks (K := K)
    (by rw [abs_of_nonneg (by linarith)]; linarith) (by omega) hf
  have hk' := step_inv hok (FMI3.kept m c₀) h.alive.kept _ _ e
  have hre := h.alive.reach.call e (fun e => by simp [Op.fn] at e)
  obtain ⟨-, n, c', ehn, r, hnf, hl, hw', rfl⟩ := doStep_loop hok e
  have hal : Alive m c₀ .stepMode w' := ⟨hre, hk', by rw [hw']; exact (hl.state hok rfl).trans h.alive.state⟩
  obtain ⟨hcount, hreach⟩ := hl.count hok hh' (q := t + q * hh) (XRat.add_fin _ _) (by simp) h.ticks (by omega)
  obtain ⟨od, hon⟩ := hm.ongoing
  obtain ⟨hlen, hinv⟩ := h.alive.reach.ready od hm.ref
  have hconf : od.Configured w.inst := hinv.resolve_left (by rw [h.alive.state]; simp [Mode.early])
  obtain ⟨k1, k2, k3⟩ := hl.early hm.lawful hon hok (hconf.ready hlen) (h.alive.kept.inst.2.1.trans hera) rfl ho rfl
  have hn0 : 0 < n := by
    rcases Nat.eq_zero_or_pos n with rfl | h0
    · exfalso
      cases hl with
      | done hr =>
        rw [Bool.false_and, Bool.or_false] at hr
        have hr := (reached_fin (q := t + q * hh) hh' h.ticks.time).1 (by rw [← XRat.add_fin]; exact hr)
        have : (1 : Rat) * hh ≤ q * hh := mul_le_mul_of_nonneg_right (by exact_mod_cast hq) hh0.le
        have := hr.1
        linarith
    · exact h0
  have hah : Ahead (t + n * hh) (t + q * hh) := hcount.ahead (.inl (by linarith))
  have hfull : r = true → t + q * hh ≤ t + n * hh := fun hr => by
    have h1 := (hreach hr).1
    have h2 : (q : Rat) * hh < ((n + 1 : Nat) : Rat) * hh := by push_cast; linarith
    have h3 : (q : Rat) < ((n + 1 : Nat) : Rat) := lt_of_mul_lt_mul_right h2 hh0.le
    have h4 : q ≤ n := by have : q < n + 1 := by exact_mod_cast h3
                          omega
    have h5 : (q : Rat) * hh ≤ n * hh := mul_le_mul_of_nonneg_right (by exact_mod_cast h4) hh0.le
    linarith
  have hclk' : c'.clock = w.inst.clock := hl.clock hok
  rw [hclk] at hclk'
  have hst : c'.stopTime = .fin stop := congrArg Clock.stop hclk'
  refine ⟨w', ehn, c'.mv.terminateSimulation, _, n, by rw [← hcount.ticks.time]; exact e, hn0, hah, ?_, ⟨hal, ?_, ?_, hah.mono ht⟩, by rw [hw']; exact k1, by rw [hw']; exact k2,
    by rw [hw'], by rw [hw']; exact hcount.nSteps⟩
  · intro hlt
    cases hr : r
    · by_cases he : m.eventUpdate = none
      · exact .inr (k3 hr he)
      · exact .inl he
    · exact absurd (hfull hr) (not_le.2 hlt)
  · rw [hw']; exact ⟨hcount.ticks.start, hcount.ticks.time, hcount.ticks.grid⟩
  · cases hr : r
    · refine ⟨t + n * hh, ?_, .refl _⟩
      rw [hw', hr]
      change Clock.mk c'.ctx.time c'.stopTime = _
      rw [hst, hcount.ticks.time]
    · refine ⟨t + q * hh, ?_, ?_⟩
      · rw [hw', hr]
        change Clock.mk (XRat.fin t +. XRat.fin (q * hh)) c'.stopTime = _
        rw [hst, XRat.add_fin]
      · rcases hah with h1 | h1
        · rw [le_antisymm h1 (hfull hr)]; exact .refl _
        · exact h1

theorem Alive.enterStepMode (hm : Describes m p) (hc : c₀.ctx.typ = .coSimulation) (hn : p.needs c₀.ctx) {w : World XRat D}
    (h : Alive m c₀ .eventMode w) (fuel : Nat) :
    ∃ w' o, FMI3.step m fuel w .enterStepMode = .ret (w', .OK, o) ∧ Alive m c₀ .stepMode w' ∧
      (¬p.over w.inst.mv.data → ¬p.over w'.inst.mv.data) ∧ w'.inst.times = w.inst.times := by
  have hok := hm.ref.eff.okOrError
  have hn' : p.needs w.inst.ctx := hm.needs_kept h.kept.inst.1.2.1 hn
  have hd : (Op.enterStepMode : Op XRat).fn ≠ .doStep := by simp [Op.fn]
  have hu : (Op.enterStepMode : Op XRat).fn = .updateDiscreteStates → ¬p.over w.inst.mv.data := fun e => by simp [Op.fn] at e
  have ha : Args m p w .enterStepMode := trivial
  obtain ⟨⟨w', s, o⟩, e⟩ := legal_ret hm (h.reach.reachable hok) hn' hd trivial ha.enough (by simp [Op.fn]) hu fuel
  obtain rfl := (C61_partial hm hn' hd hu e).2 ⟨by rw [h.state]; simp [Op.fn, Spec.allowedIn], ha⟩
  refine ⟨w', o, e, ⟨h.reach.call e (fun _ => by rw [h.state]; simp), step_inv hok (FMI3.kept m c₀) h.kept _ _ e, ?_⟩,
    fun hp => hm.over_kept e (by simp [Op.fn]) hp, step_times hok hd _ e⟩
  obtain ⟨-, h1 | ⟨-, -, h1⟩ | ⟨-, h1, -⟩⟩ := step_mode' hok _ e
  · cases h1.1
  · simp only at h1
    rw [h1]
    rfl
  · cases h1

/-- The arguments of `fmi3UpdateDiscreteStates` in the program. -/
abbrev eventArgs : EventOut XRat := ⟨some false, some false, some false, some false, some false, some (Arith.lit 0)⟩

theorem Alive.update (hm : Describes m p) (hc : c₀.ctx.typ = .coSimulation) (hn : p.needs c₀.ctx) {w : World XRat D}
    (h : Alive m c₀ .eventMode w) (hov : ¬p.over w.inst.mv.data) (fuel : Nat) :
    ∃ w' i, FMI3.step m fuel w (.updateDiscreteStates eventArgs) = .ret (w', .OK, .event i) ∧ Alive m c₀ .eventMode w' ∧
      i.discreteStatesNeedUpdate = some false ∧ i.terminateSimulation = some w'.inst.mv.terminateSimulation ∧
      (w'.inst.mv.terminateSimulation = false → ¬p.over w'.inst.mv.data) ∧ w'.inst.times = w.inst.times := by
  have hok := hm.ref.eff.okOrError
  have hn' : p.needs w.inst.ctx := hm.needs_kept h.kept.inst.1.2.1 hn
  have hd : (Op.updateDiscreteStates eventArgs : Op XRat).fn ≠ .doStep := by simp [Op.fn]
  have ha : Args m p w (.updateDiscreteStates eventArgs) := trivial
  obtain ⟨⟨w', s, o⟩, e⟩ := legal_ret hm (h.reach.reachable hok) hn' hd (by simp [WellFormed]) ha.enough (by simp [Op.fn]) (fun _ => hov) fuel
  obtain rfl := (C61_partial hm hn' hd (fun _ => hov) e).2 ⟨by rw [h.state]; simp [Op.fn, Spec.allowedIn, Spec.anyMode], ha⟩
  have hal : Alive m c₀ .eventMode w' := by
    refine ⟨h.reach.call e (fun e => by simp [Op.fn] at e), step_inv hok (FMI3.kept m c₀) h.kept _ _ e, ?_⟩
    obtain ⟨-, h1 | ⟨-, -, h1⟩ | ⟨-, h1, -⟩⟩ := step_mode' hok _ e
    · cases h1.1
    · simp only at h1
      rw [h1]
      exact h.state
    · cases h1
  have ht : w'.inst.times = w.inst.times := step_times hok hd _ e
  obtain ⟨i', rfl, hi⟩ := C50_no_second_iteration hm.ref (h.reach.reachable hok) e
  have key : i' = fillEventOut w'.inst.mv eventArgs ∧ (w'.inst.mv.terminateSimulation = false → ¬p.over w'.inst.mv.data) := by
    obtain ⟨od, hon⟩ := hm.ongoing
    simp only [FMI3.step, World.run, updateDiscreteStates, begin, beginFunction] at e
    obtain ⟨⟨c1, s1, o1⟩, e2, e1⟩ := Outcome.bind_eq_ret.1 e
    cases e1
    split at e2
    · cases hnn : m.eventUpdate with
      | none => rw [hnn] at e2; cases e2; exact ⟨rfl, fun _ => hov⟩
      | some eu =>
        rw [hnn] at e2
        simp only [call] at e2
        obtain ⟨⟨c2, s2, u⟩, e3, e2⟩ := Outcome.bind_eq_ret.1 e2
        obtain ⟨mv, e4, rfl⟩ := lift_eq_ret.1 e3
        rcases hok _ _ _ _ _ (.event hnn e4) with rfl | rfl
        · cases e2; exact ⟨rfl, hon.event _ hnn _ _ _ e4 rfl⟩
        · cases e2
    · cases e2
  obtain ⟨rfl, k2⟩ := key
  refine ⟨w', _, e, hal, ?_, rfl, k2, ht⟩
  have : w'.inst.mv.newDiscreteStatesNeeded = false := by simpa [fillEventOut] using hi
  simp [fillEventOut, this]

theorem Describes.timeless (hm : Describes m p) (h : m.eventUpdate = none) : Timeless m := by
  cases hm <;> first | constructor | cases h

theorem Timeless.runs (ht : Timeless m) (hm : Describes m p) {mode : Mode} {w : World XRat D} (h : Alive m c₀ mode w) :
    w.inst.mv.terminateSimulation = false :=
  ((h.reach.reachable hm.ref.eff.okOrError).mv hm.ref.eff.okOrError ht.inv ⟨rfl, rfl⟩).inst.1

section
variable (hm : Describes m p) (hc : c₀.ctx.typ = .coSimulation) (hn : p.needs c₀.ctx) (hera : c₀.earlyReturnAllowed = true)
    {hh stop : Rat} (hh' : m.h = .fin hh) {q : Nat} (hq : 0 < q) (hs : 0 ≤ stop) {fuel K : Nat}
    (hK : 2 * stop + 1 ≤ K * hh) (hb : K + fuel < 2 ^ 64) (hf : K < fuel) {P : Program XRat (Op XRat)} (hPh : P.h = .fin (q * hh)) (hPs : P.stopTime = .fin stop)

include hm hs hK in
theorem Marching.bound (hh' : m.h = .fin hh) {mode : Mode} {t : Rat} {w : World XRat D} (h : Marching m c₀ hh stop mode t w) : w.inst.nSteps ≤ K := by
  have hh0 := hm.step_pos hh'
  have h1 := h.ahead.bound hs
  have h2 := h.ticks.grid
  have h3 : (w.inst.nSteps : Rat) * hh ≤ K * hh := by linarith
  exact_mod_cast le_of_mul_le_mul_right h3 hh0

include hm hc hn hera hq hs hK hb hf hPh hPs in
theorem earlyReturnLoop_ok (hh' : m.h = .fin hh) (hP : Fits m p P) : ∀ {n : Nat} {t : Rat} {term : Bool} {w : World XRat D} {rows l}, Marching m c₀ hh stop .stepMode t w →
    (term = false → ¬p.over w.inst.mv.data) → (Timeless m → term = false) → Marches (m.eventUpdate ≠ none) False hh (q * hh) stop l t →
    rows.map Row.time ++ [.fin t] = l.map XRat.fin → K < w.inst.nSteps + n →
    ∃ rows', earlyReturnLoop m P fuel n (.fin t) term w rows = .ret (.OK, rows') ∧
      ∃ l T, rows'.map Row.time = l.map XRat.fin ∧ Marches (m.eventUpdate ≠ none) False hh (q * hh) stop l T ∧ (Timeless m → stop < T + q * hh) := by
  intro n
  induction n with
  | zero =>
    intro t term w rows l hM _ _ _ _ hk
    have := hM.bound hm hs hK hh'
    omega
  | succ n ih =>
    intro t term w rows l hM ho hterm hl hrows hk
    obtain ⟨w₁, v₁, a₁, M₁, o₁⟩ := hM.accesses hm hc hn (hP.inputs (.fin t)) fuel
    obtain ⟨w₂, v₂, a₂, M₂, o₂⟩ := M₁.accesses hm hc hn hP.record fuel
    have hst : w₂.inst.nSteps = w.inst.nSteps := by
      have h1 := M₂.ticks.grid
      have h2 := hM.ticks.grid
      have : (w₂.inst.nSteps : Rat) * hh = w.inst.nSteps * hh := by linarith
      exact_mod_cast mul_right_cancel₀ (ne_of_gt (hm.step_pos hh')) this
    unfold earlyReturnLoop
    simp only []
    rw [CALLS_ok (api := api3 m fuel P.h) a₁, CALLS_ok (api := api3 m fuel P.h) a₂]
    by_cases hcond : (term || (P.stopTime <. XRat.fin t +. P.h)) = true
    · rw [if_pos hcond]
      obtain ⟨w₃, o₃, e₃⟩ := M₂.alive.terminate hm hc hn fuel
      refine ⟨_, tearDown_ok (api := api3 m fuel P.h) e₃, l, t, by simpa using hrows, hl, fun ht => ?_⟩
      rw [hterm ht, Bool.false_or, hPs, hPh, XRat.add_fin, XRat.lt_fin, decide_eq_true_eq] at hcond
      exact hcond
    · rw [if_neg hcond]
      rw [Bool.not_eq_true, Bool.or_eq_false_iff, hPs, hPh, XRat.add_fin, XRat.lt_fin, decide_eq_false_iff_not, not_lt] at hcond
      obtain ⟨w₃, ehn, term', er, k, e₃, hk0, hah, hearly, M₃, o₃, -, hterm', hns⟩ := M₂.doStep hm hn hera hh' hq hK hb hf (o₂ (o₁ (ho hcond.1))) hcond.2
      rw [CALLS_ok (api := api3 m fuel P.h) (vs := [_]) (w' := w₃) (.cons (hPh ▸ e₃) .nil)]
      simp only [stepResult, Option.getD_some]
      have ht' : Timeless m → term' = false := fun ht => hterm' ▸ ht.runs hm M₃.alive
      refine ih M₃ o₃ ht' (hl.step hcond.2 hk0 rfl hah fun hlt => ?_) (l := l ++ [t + k * hh]) (by simp [← hrows]) (by omega)
      rcases hearly hlt with h | h
      · exact h
      · intro he
        rw [ht' (hm.timeless he)] at h
        cases h

include hm hc hn in
theorem updateStates_ok {hh stop t : Rat} {w : World XRat D} (h : Marching m c₀ hh stop .eventMode t w) (ho : ¬p.over w.inst.mv.data) {fuel iter : Nat} (hi : 0 < iter)
    {rows : List (Row XRat (Out XRat))} {kont} :
    ∃ w' term, updateStates m P fuel rows kont iter w = kont w' term ∧ Marching m c₀ hh stop .eventMode t w' ∧ w'.inst.mv.terminateSimulation = term ∧
      (term = false → ¬p.over w'.inst.mv.data) ∧ ∃ o, FMI3.step m fuel w (.updateDiscreteStates eventArgs) = .ret (w', .OK, o) := by
  obtain ⟨w', i, e, ha, h1, h2, h3, h4⟩ := h.alive.update hm hc hn ho fuel
  obtain ⟨iter, rfl⟩ : ∃ j, iter = j + 1 := ⟨iter - 1, by omega⟩
  refine ⟨w', w'.inst.mv.terminateSimulation, ?_, h.of_times ha h4, rfl, h3, _, e⟩
  unfold updateStates
  rw [CALLS_ok (api := api3 m fuel P.h) (AllOK.cons (call := FMI3.step m fuel) e .nil)]
  simp only [h1, h2, Option.getD_some]
  cases w'.inst.mv.terminateSimulation <;> rfl

include hm hc hn hera hq hs hK hb hf hPh hPs in
theorem eventModeLoop_ok (hh' : m.h = .fin hh) (hP : FitsEvents m p P) {iter : Nat} (hi : 0 < iter) : ∀ {n : Nat} {t : Rat} {term : Bool} {w : World XRat D} {rows l},
    Marching m c₀ hh stop .stepMode t w →
    (term = false → ¬p.over w.inst.mv.data) → (Timeless m → term = false) → Marches (m.eventUpdate ≠ none) True hh (q * hh) stop l t →
    rows.map Row.time ++ [.fin t] = l.map XRat.fin → K < w.inst.nSteps + n →
    ∃ rows', eventModeLoop m P fuel iter n (.fin t) term w rows = .ret (.OK, rows') ∧
      ∃ l T, rows'.map Row.time = l.map XRat.fin ∧ Marches (m.eventUpdate ≠ none) True hh (q * hh) stop l T ∧ (Timeless m → stop < T + q * hh) := by
  have hsame : ∀ {mode mode' t w w'}, Marching m c₀ hh stop mode t w → Marching m c₀ hh stop mode' t w' → w'.inst.nSteps = w.inst.nSteps := by
    intro mode mode' t w w' h h'
    have h1 := h.ticks.grid
    have h2 := h'.ticks.grid
    have : (w'.inst.nSteps : Rat) * hh = w.inst.nSteps * hh := by linarith
    exact_mod_cast mul_right_cancel₀ (ne_of_gt (hm.step_pos hh')) this
  intro n
  induction n with
  | zero =>
    intro t term w rows l hM _ _ _ _ hk
    have := hM.bound hm hs hK hh'
    omega
  | succ n ih =>
    intro t term w rows l hM ho hterm hl hrows hk
    obtain ⟨w₂, v₂, a₂, M₂, o₂⟩ := hM.accesses hm hc hn hP.record fuel
    have hst := hsame hM M₂
    unfold eventModeLoop
    simp only []
    rw [CALLS_ok (api := api3 m fuel P.h) a₂]
    by_cases hcond : (term || (P.stopTime <. XRat.fin t +. P.h)) = true
    · rw [if_pos hcond]
      obtain ⟨w₃, o₃, e₃⟩ := M₂.alive.terminate hm hc hn fuel
      refine ⟨_, tearDown_ok (api := api3 m fuel P.h) e₃, l, t, by simpa using hrows, hl, fun ht => ?_⟩
      rw [hterm ht, Bool.false_or, hPs, hPh, XRat.add_fin, XRat.lt_fin, decide_eq_true_eq] at hcond
      exact hcond
    · rw [if_neg hcond]
      rw [Bool.not_eq_true, Bool.or_eq_false_iff, hPs, hPh, XRat.add_fin, XRat.lt_fin, decide_eq_false_iff_not, not_lt] at hcond
      obtain ⟨w₃, ehn, term', er, k, e₃, hk0, hah, hearly, M₃, o₃, oe, hterm', hns⟩ := M₂.doStep hm hn hera hh' hq hK hb hf (o₂ (ho hcond.1)) hcond.2
      rw [CALLS_ok (api := api3 m fuel P.h) (vs := [_]) (w' := w₃) (.cons (hPh ▸ e₃) .nil)]
      simp only [stepResult, Option.getD_some]
      have ht' : Timeless m → term' = false := fun ht => hterm' ▸ ht.runs hm M₃.alive
      have hear : t + k * hh < t + q * hh → m.eventUpdate ≠ none := fun hlt => by
        rcases hearly hlt with h | h
        · exact h
        · intro he
          rw [ht' (hm.timeless he)] at h
          cases h
      cases hehn : ehn
      · simp only [Bool.false_eq_true, if_false]
        exact ih M₃ o₃ ht' (hl.step hcond.2 hk0 rfl hah hear) (l := l ++ [t + k * hh]) (by simp [← hrows]) (by omega)
      · simp only [if_true]
        obtain ⟨w₄, v₄, a₄, M₄, o₄⟩ := M₃.accesses hm hc hn hP.record fuel
        rw [CALLS_ok (api := api3 m fuel P.h) a₄]
        obtain ⟨w₅, v₅, e₅, A₅, o₅, t₅⟩ := M₄.alive.step hm hc hn (op := .enterEventMode) (by simp [Op.fn]) (by simp [Op.fn]) (by simp [Op.fn])
          (by simp [Op.fn, Spec.allowedIn]) trivial trivial fuel
        have M₅ : Marching m c₀ hh stop .eventMode (t + k * hh) w₅ := M₄.of_times A₅ t₅
        rw [CALLS_ok (api := api3 m fuel P.h) (AllOK.cons (call := FMI3.step m fuel) e₅ .nil)]
        obtain ⟨w₆, v₆, a₆, M₆, o₆⟩ := M₅.accesses hm hc hn (hP.inputs (.fin (t + k * hh))) fuel
        rw [CALLS_ok (api := api3 m fuel P.h) a₆]
        obtain ⟨w₇, term₇, e₇, M₇, hterm₇, o₇, -⟩ := updateStates_ok hm hc hn (P := P) M₆ (o₆ (o₅ (o₄ (oe hehn)))) hi (fuel := fuel)
        rw [e₇]
        obtain ⟨w₈, v₈, e₈, A₈, o₈, t₈⟩ := M₇.alive.enterStepMode hm hc hn fuel
        have M₈ := M₇.of_times A₈ t₈
        rw [CALLS_ok (api := api3 m fuel P.h) (AllOK.cons (call := FMI3.step m fuel) e₈ .nil)]
        have hs8 := hsame M₃ M₈
        exact ih M₈ (fun h => o₈ (o₇ h)) (fun ht => hterm₇ ▸ ht.runs hm M₇.alive) (hl.event hcond.2 hk0 rfl hah hear trivial) (l := l ++ [t + k * hh, t + k * hh])
          (by simp [← hrows]) (by omega)

end

theorem createdEarly (hm : Describes m p) {emu : Bool} (he : emu = true → m.eventUpdate ≠ none) :
    ∃ c l, instantiateCoSimulation m (some "instance1") (some m.token) none false emu true true false true = (some c, l) ∧
      ¬p.over c.mv.data ∧ c.ctx.typ = .coSimulation ∧ c.ctx.state = .instantiated ∧ c.eventModeUsed = emu ∧ c.earlyReturnAllowed = true := by
  unfold instantiateCoSimulation
  cases hm
  case stair => cases emu <;> exact ⟨_, _, rfl, fun h => absurd h (by change ¬((10 : Int) ≤ 1); decide), rfl, rfl, rfl, rfl⟩
  all_goals
    cases emu
    · exact ⟨_, _, rfl, fun h => h, rfl, rfl, rfl, rfl⟩
    · first | exact absurd rfl (he rfl) | exact ⟨_, _, rfl, fun h => h, rfl, rfl, rfl, rfl⟩

/-- The initialisation. -/
theorem startedEarly (hm : Describes m p) {emu : Bool} {l} {c : Comp XRat D}
    (hnew : instantiateCoSimulation m (some "instance1") (some m.token) none false emu true true false true = (some c, l))
    (hov : ¬p.over c.mv.data) (ht : c.ctx.typ = .coSimulation) (hst : c.ctx.state = .instantiated) (hemu : c.eventModeUsed = emu)
    (hn : p.needs c.ctx) {start inputs : List (Op XRat)} (hS : ∀ op ∈ start, Access m p .instantiated op) (hI : ∀ op ∈ inputs, Access m p .initializationMode op)
    {hh stop : Rat} (hs : 0 ≤ stop) {fuel : Nat} :
    ∃ w vs, AllOK (FMI3.step m fuel) (.fresh c) (start ++ .enterInitializationMode (Arith.lit 0) true (.fin stop) :: (inputs ++ [.exitInitializationMode])) w vs ∧
      Marching m c hh stop (if emu then .eventMode else .stepMode) 0 w ∧ ¬p.over w.inst.mv.data := by
  have hok := hm.ref.eff.okOrError
  have ha : Alive m c .instantiated (.fresh c) := ⟨.new (.cs hnew) ⟨rfl, fun _ => rfl, fun _ _ e => by cases e⟩,
    WInv.fresh ⟨⟨rfl, rfl, rfl, rfl, rfl⟩, rfl, rfl⟩, hst⟩
  obtain ⟨w₁, v₁, h1, ha, ho⟩ := AllOK.of_inv (call := FMI3.step m fuel) (os := start)
    (Q := fun w => Alive m c .instantiated w ∧ ¬p.over w.inst.mv.data)
    (fun o ho w hw => by
      obtain ⟨w', o, e, k, k', -⟩ := hw.1.access hm ht hn (hS o ho) fuel
      exact ⟨w', o, e, k, k' hw.2⟩) ⟨ha, hov⟩
  obtain ⟨w₂, o₂, e₂, a₂, k₂, t₂⟩ := ha.step hm ht hn (op := .enterInitializationMode (Arith.lit 0) true (.fin stop)) (by simp [Op.fn])
    (by simp [Op.fn]) (by simp [Op.fn]) (by simp [Op.fn, Spec.allowedIn]) trivial trivial fuel
  obtain ⟨s1, s2, s3, s4⟩ := init_start hok (ha.reach.reachable hok) e₂
  have M₂ : Marching m c hh stop .initializationMode 0 w₂ := ⟨a₂, ⟨s3, s2, by rw [s1]; simp⟩, ⟨0, by rw [s4]; simp, .refl _⟩, .inl hs⟩
  obtain ⟨w₃, v₃, a₃, M₃, o₃⟩ := M₂.accesses hm ht hn hI fuel
  obtain ⟨w₄, o₄, e₄, a₄, k₄, t₄⟩ := M₃.alive.step hm ht hn (op := .exitInitializationMode) (by simp [Op.fn])
    (by simp [Op.fn]) (by simp [Op.fn]) (by simp [Op.fn, Spec.allowedIn]) trivial trivial fuel
  rw [hemu] at a₄
  have M₄ : Marching m c hh stop (if emu then .eventMode else .stepMode) 0 w₄ := M₃.of_times (by cases emu <;> exact a₄) t₄
  refine ⟨w₄, _, h1.append (.cons e₂ (a₃.append (.cons e₄ .nil))), M₄, k₄ (o₃ (k₂ ho))⟩

end
end FMI3
end Verif
