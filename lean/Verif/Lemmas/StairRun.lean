import Verif.Lemmas.Traj
import Verif.Lemmas.Reached

/-!
# Trajectories of the Stair FMU in exact arithmetic
-/

set_option linter.unusedSectionVars false

namespace Verif.Stair
open Verif

/-- The instance has made `n` solver steps and handled `k` time events since it was started at time 0 with the
default counter. -/
structure Sim (n k : Nat) (c : Comp XRat Data) : Prop where
  start : c.startTime = .fin 0
  time : c.ctx.time = .fin (n / 5)
  nSteps : c.nSteps = n
  counter : c.mv.data.counter = 1 + k
  netd : c.mv.nextEventTimeDefined = true
  net : c.mv.nextEventTime = .fin (1 + k)
  term : c.mv.terminateSimulation = decide (9 ≤ k)
  small : n ≤ 50

theorem h_eq : (model : Model XRat Data).h = .fin (1 / 5) := by decide +kernel

theorem Sim.of_frame {n k : Nat} {c c' : Comp XRat Data} (h : Sim n k c) (f : Frame c c')
    (h1 : c'.mv.data = c.mv.data) (h2 : c'.mv.nextEventTimeDefined = c.mv.nextEventTimeDefined)
    (h3 : c'.mv.nextEventTime = c.mv.nextEventTime) (h4 : c'.mv.terminateSimulation = c.mv.terminateSimulation) :
    Sim n k c' :=
  ⟨f.startTime.trans h.start, by rw [f.ctx]; exact h.time, f.nSteps.trans h.nSteps, by rw [h1]; exact h.counter,
    h2.trans h.netd, h3.trans h.net, h4.trans h.term, h.small⟩

theorem ready (c : Comp XRat Data) (h : c.Lens model) : (ode (F := XRat)).Ready c :=
  ⟨h, fun h => absurd h (by decide), fun h => absurd h (by decide)⟩

/-- A solver step. -/
theorem Sim.fixedStep {n k : Nat} {c : Comp XRat Data} (h : Sim n k c) (hl : c.Lens model) (hn : n < 50) :
    ∃ c', doFixedStep model c = .ret (c', .OK, some (false, decide (5 * (k + 1) ≤ n + 1))) ∧ Sim (n + 1) k c' ∧
      c'.Lens model ∧ c'.eventModeUsed = c.eventModeUsed := by
  obtain ⟨c', e, hr, hf, -, hd, hmv⟩ := (ode (F := XRat)).fixedStep_eq (ready c hl)
  have ht : (advanceTime model c).ctx.time = .fin ((n + 1 : Nat) / 5) := by
    show (c.startTime +. Arith.lit (((c.nSteps + 1) % 2 ^ 64 : Nat) : Rat) *. _) = _
    rw [h.nSteps, h.start, h_eq, Nat.mod_eq_of_lt (by omega)]
    show XRat.fin _ = _
    congr 1
    push_cast
    ring
  have hc : ((ode (F := XRat)).crossing c.prez ((ode (F := XRat)).euler c.mv.data)) = false := rfl
  rw [hc, h.netd, ht, h.net, XRat.le_fin, Bool.true_and] at e
  have he : decide ((1 + k : Rat) ≤ ((n + 1 : Nat) : Rat) / 5) = decide (5 * (k + 1) ≤ n + 1) := by
    rw [decide_eq_decide, le_div_iff₀ (by norm_num)]
    have : ((1 + k : Rat) * 5 ≤ ((n + 1 : Nat) : Rat)) ↔ ((((1 + k) * 5 : Nat) : Rat) ≤ ((n + 1 : Nat) : Rat)) := by
      push_cast; rfl
    rw [this, Nat.cast_le]
    omega
  rw [he] at e
  refine ⟨c', e, ⟨?_, ?_, ?_, ?_, ?_, ?_, ?_, by omega⟩, hr.lens, hf.emu⟩
  · exact hf.startTime.trans h.start
  · rw [hf.ctx]; exact ht
  · rw [hf.nSteps]
    show (c.nSteps + 1) % 2 ^ 64 = _
    rw [h.nSteps]; omega
  · have : c'.mv.data = c.mv.data := hd
    rw [this, h.counter]
  · rw [hmv]; exact h.netd
  · rw [hmv]; exact h.net
  · rw [hmv]; exact h.term

/-- The event handler at the time of the next event. -/
theorem Sim.event {n k : Nat} {c : Comp XRat Data} (h : Sim n k c) (hn : n = 5 * (k + 1)) (hk : k ≤ 8) :
    ∃ c', c.lift (eventUpdate c.ctx c.mv) = .ret (c', .OK, ()) ∧ Sim n (k + 1) c' ∧ Frame c c' ∧
      c'.prez = c.prez ∧ c'.z = c.z ∧ c'.x = c.x ∧ c'.dx = c.dx := by
  have hcl : isClose c.ctx.time c.mv.nextEventTime = true := by
    rw [h.time, h.net, isClose_fin, hn]
    have : (((5 * (k + 1) : Nat) : Rat) / 5) = 1 + k := by push_cast; ring
    rw [this]
    exact Close.refl _
  have e : eventUpdate c.ctx c.mv = .ret ({ c.mv with
    data := { counter := c.mv.data.counter + 1 }, nextEventTime := c.mv.nextEventTime +. Arith.lit 1
    valuesChanged := false, nominalsChanged := false
    terminateSimulation := decide (c.mv.data.counter + 1 ≥ 10), nextEventTimeDefined := true }, .OK, ()) := by
    unfold eventUpdate
    rw [h.netd, hcl, h.counter]
    simp only [Bool.and_self, if_true]
    rw [if_neg (by omega)]
    simp only [Outcome.ret_bind]
    rw [if_neg (by omega)]
  refine ⟨{ c with mv := { c.mv with
    data := { counter := c.mv.data.counter + 1 }, nextEventTime := c.mv.nextEventTime +. Arith.lit 1
    valuesChanged := false, nominalsChanged := false
    terminateSimulation := decide (c.mv.data.counter + 1 ≥ 10), nextEventTimeDefined := true } }, by rw [e]; rfl, ⟨h.start, h.time, h.nSteps, ?_, rfl, ?_, ?_, h.small⟩, rfl, rfl, rfl, rfl, rfl⟩
  · simp only [h.counter]; push_cast; ring
  · simp only [h.net]
    show XRat.fin _ = _
    congr 1; push_cast; ring
  · simp only [h.counter, decide_eq_decide]; omega

/-- The event handler at any other time. -/
theorem Sim.idle {n k : Nat} {c : Comp XRat Data} (h : Sim n k c) (hn : n < 5 * (k + 1)) (hk : k ≤ 9) :
    ∃ c', c.lift (eventUpdate c.ctx c.mv) = .ret (c', .OK, ()) ∧ Sim n k c' ∧ Frame c c' ∧
      c'.prez = c.prez ∧ c'.z = c.z ∧ c'.x = c.x ∧ c'.dx = c.dx := by
  have hcl : isClose c.ctx.time c.mv.nextEventTime = false := by
    rw [h.time, h.net, isClose_fin_false]
    have h1 : ((n : Rat) + 1) / 5 ≤ 1 + k := by
      rw [div_le_iff₀ (by norm_num)]
      have : ((n + 1 : Nat) : Rat) ≤ ((5 * (k + 1) : Nat) : Rat) := Nat.cast_le.2 (by omega)
      push_cast at this
      linarith
    have h2 : (k : Rat) ≤ 9 := by exact_mod_cast hk
    have h3 : (0 : Rat) ≤ (n : Rat) / 5 := div_nonneg (Nat.cast_nonneg _) (by norm_num)
    have h4 : (0 : Rat) ≤ k := Nat.cast_nonneg _
    have h5 : (n : Rat) / 5 ≤ 1 + k - 1 / 5 := by linarith
    generalize (n : Rat) / 5 = t at *
    rintro (hc | hc)
    · rw [abs_sub_comm, abs_of_nonneg (by linarith)] at hc
      unfold tol at hc
      linarith
    · rw [abs_sub_comm, abs_of_nonneg (by linarith), max_eq_right (by rw [abs_of_nonneg h3, abs_of_nonneg (by linarith)]; linarith),
        abs_of_nonneg (by linarith)] at hc
      unfold tol at hc
      linarith
  have e : eventUpdate c.ctx c.mv = .ret ({ c.mv with
    valuesChanged := false, nominalsChanged := false
    terminateSimulation := decide (c.mv.data.counter ≥ 10), nextEventTimeDefined := true }, .OK, ()) := by
    unfold eventUpdate
    rw [h.netd, hcl, h.counter]
    simp only [Bool.and_false, Bool.false_eq_true, if_false, Outcome.ret_bind, h.counter]
    rw [if_neg (by omega)]
  refine ⟨{ c with mv := { c.mv with
    valuesChanged := false, nominalsChanged := false
    terminateSimulation := decide (c.mv.data.counter ≥ 10), nextEventTimeDefined := true } }, by rw [e]; rfl, ⟨h.start, h.time, h.nSteps, h.counter, rfl, h.net, ?_, h.small⟩, rfl, rfl, rfl, rfl, rfl⟩
  simp only [h.counter, decide_eq_decide]; omega

/-- The event handler refuses to count further than 10. -/
theorem Sim.overflow {c c' : Comp XRat Data} (h : c.mv.data.counter = 10) (ht : c.ctx.time = .fin 10)
    (hd : c.mv.nextEventTimeDefined = true) (hn : c.mv.nextEventTime = .fin 10) :
    c.lift (eventUpdate c.ctx c.mv) ≠ .ret (c', .OK, ()) := by
  intro e
  obtain ⟨mv, e, -⟩ := lift_eq_ret.1 e
  unfold eventUpdate at e
  rw [ht, hd, hn, h, show isClose (XRat.fin 10) (.fin 10) = true by decide +kernel] at e
  simp only [Bool.and_self, if_true] at e
  rw [if_neg (by decide)] at e
  simp only [Outcome.ret_bind] at e
  rw [if_pos (by decide)] at e
  unfold failM at e
  cases e

/-- The instance has handled all events up to its time, which is before 10. -/
def At (n : Nat) (c : Comp XRat Data) : Prop := Sim n (n / 5) c ∧ c.Lens model ∧ n < 50

theorem okOrError : OkOrError (model : Model XRat Data) := (eff (F := XRat)).okOrError

theorem Lens.of_eq {c c' : Comp XRat Data} (h : c.Lens model) (hp : c'.prez = c.prez) (hz : c'.z = c.z)
    (hx : c'.x = c.x) (hd : c'.dx = c.dx) : c'.Lens model :=
  ⟨by rw [hz]; exact h.z, by rw [hp]; exact h.prez, by rw [hx]; exact h.x, by rw [hd]; exact h.dx⟩

/-- What happens behind a solver step. -/
theorem At.event {n : Nat} {c c1 : Comp XRat Data} (h : At n c) {se te}
    (e : doFixedStep model c = .ret (c1, .OK, some (se, te))) :
    ((se || te) = false ∧ At (n + 1) c1 ∨
      (se || te) = true ∧ ∀ c2, c1.lift (eventUpdate c1.ctx c1.mv) = .ret (c2, .OK, ()) → At (n + 1) c2) ∧
    c1.eventModeUsed = c.eventModeUsed := by
  obtain ⟨hs, hl, hn⟩ := h
  obtain ⟨c', e', hs', hl', he⟩ := hs.fixedStep hl hn
  rw [e'] at e
  cases e
  refine ⟨?_, he⟩
  by_cases h5 : 5 * (n / 5 + 1) ≤ n + 1
  · right
    have h6 : n + 1 = 5 * (n / 5 + 1) := by omega
    refine ⟨by simp [h5], fun c2 e2 => ?_⟩
    have h7 : (n + 1) / 5 = n / 5 + 1 := by omega
    by_cases h8 : n / 5 ≤ 8
    · obtain ⟨c3, e3, h3, -, hp, hz, hx, hd⟩ := hs'.event h6 h8
      rw [e3] at e2
      cases e2
      exact ⟨h7 ▸ h3, Lens.of_eq hl' hp hz hx hd, by omega⟩
    · have h9 : n = 49 := by omega
      subst h9
      refine absurd e2 (Sim.overflow ?_ ?_ hs'.netd ?_)
      · rw [hs'.counter]; decide
      · rw [hs'.time]; congr 1; norm_num
      · rw [hs'.net]; congr 1; norm_num
  · left
    have h7 : (n + 1) / 5 = n / 5 := by omega
    exact ⟨by simp [h5], h7 ▸ hs', hl', by omega⟩

theorem At.term {n : Nat} {c : Comp XRat Data} (h : At n c) : c.mv.terminateSimulation = true ↔ 45 ≤ n := by
  rw [h.1.term, decide_eq_true_eq]; omega

theorem At.iter2 {n : Nat} {c c' : Comp XRat Data} (h : At n c) {b}
    (e : FMI2.iter model c = .ret (c', .OK, b)) : At (n + 1) c' := by
  rcases FMI2.iter_eq_ret okOrError e with ⟨-, c1, se, te, e1, h1⟩ | ⟨h, -⟩
  · obtain ⟨⟨h2, h3⟩ | ⟨h2, h3⟩, -⟩ := h.event e1
    · rcases h1 with ⟨rfl, -⟩ | ⟨eu, -, h1, -⟩
      · exact h3
      · rw [h2] at h1; cases h1
    · rcases h1 with ⟨rfl, h1 | h1⟩ | ⟨eu, h1, -, e2⟩
      · cases h1
      · rw [h2] at h1; cases h1
      · cases h1
        exact h3 _ e2
  · cases h

theorem At.loop2 {next : XRat} {c c' : Comp XRat Data} {k s} (hl : FMI2.Loop model next c k c' s) (hs : s ≠ .Error) :
    ∀ {n}, At n c → At (n + k) c' ∧ (n < 45 → s = .OK ∧ n + k < 45 ∨ s = .Discard ∧ n + k = 45) := by
  induction hl with
  | done =>
    intro n h
    refine ⟨⟨⟨h.1.start, h.1.time, h.1.nSteps, h.1.counter, h.1.netd, h.1.net, h.1.term, h.1.small⟩,
      ⟨h.2.1.z, h.2.1.prez, h.2.1.x, h.2.1.dx⟩, h.2.2⟩, fun h => .inl ⟨rfl, h⟩⟩
  | @step c c1 k c' s _ e ht _ ih =>
    intro n h
    have h1 := h.iter2 e
    have h2 : n + 1 < 45 := by
      refine Classical.byContradiction fun h' => ?_
      rw [h1.term.2 (by omega)] at ht
      cases ht
    obtain ⟨h3, h4⟩ := ih hs h1
    rw [Nat.add_assoc, Nat.add_comm 1] at h3
    exact ⟨h3, fun _ => by
      rw [← Nat.add_assoc, Nat.add_right_comm]
      exact h4 h2⟩
  | discard _ e ht =>
    intro n h
    have h1 := h.iter2 e
    have := h1.term.1 ht
    exact ⟨h1, fun _ => .inr ⟨rfl, by omega⟩⟩
  | error => exact absurd rfl hs

theorem At.iter3 {n : Nat} {c c' : Comp XRat Data} (h : At n c) (hm : c.eventModeUsed = false) {o}
    (e : FMI3.iter model c false = .ret (c', .OK, o)) :
    At (n + 1) c' ∧ o.1 = false ∧ (o.2 = false → n + 1 < 45) ∧
      (o.2 = true → n < 45 → n + 1 = 45 ∨ c'.earlyReturnAllowed = true) := by
  rcases FMI3.iter_eq_ret okOrError e with ⟨-, c0, ehn0, c1, se, te, e0, e1, h1⟩ | ⟨h, -⟩
  · unfold FMI3.pendingEvent at e0
    cases e0
    obtain ⟨h2, hm1⟩ := h.event e1
    rw [hm] at hm1
    suffices At (n + 1) c' ∧ o.1 = false ∧ (o.2 = c'.mv.terminateSimulation ∨
        o.2 = (c'.earlyReturnAllowed || c'.mv.terminateSimulation)) by
      obtain ⟨ha, ho, h5⟩ := this
      refine ⟨ha, ho, fun h => ?_, fun h hn => ?_⟩
      · refine Classical.byContradiction fun h' => ?_
        have := ha.term.2 (by omega)
        rcases h5 with h5 | h5 <;> rw [this] at h5 <;> simp [h5] at h
      · by_cases ht : c'.mv.terminateSimulation = true
        · have := ha.term.1 ht; omega
        · right
          rcases h5 with h5 | h5 <;> rw [h] at h5
          · exact absurd h5.symm ht
          · simpa [ht] using h5
    rcases h1 with ⟨h1 | h1, rfl, rfl⟩ | ⟨-, -, h1, -⟩ | ⟨eu, h1, h4, -, ei, rfl⟩
    · cases h1
    · rcases h2 with ⟨-, h2⟩ | ⟨h2, -⟩
      · exact ⟨h2, rfl, .inl rfl⟩
      · rw [h1] at h2; cases h2
    · rw [hm1] at h1; cases h1
    · cases h1
      refine ⟨?_, rfl, .inr rfl⟩
      rcases h2 with ⟨h2, -⟩ | ⟨-, h2⟩
      · rw [h4] at h2; cases h2
      · rcases FMI3.internalEvent_eq_ret okOrError rfl ei with ⟨-, c3, e3, ⟨-, rfl⟩ | ⟨h', -⟩⟩ | ⟨h, -⟩
        · exact h2 _ e3
        · exact absurd h' (by decide)
        · cases h
  · cases h

theorem At.loop3 {next : XRat} {c c' : Comp XRat Data} {ehn k s e r} (hl : FMI3.Loop model next c ehn k c' s e r)
    (hs : s ≠ .Error) : ∀ {n}, ehn = false → c.eventModeUsed = false → At n c →
    At (n + k) c' ∧ (n < 45 → n + k ≤ 45 ∧ (n + k = 45 → r = false)) := by
  induction hl with
  | done =>
    intro n _ _ h
    exact ⟨h, fun h => by omega⟩
  | @step c ehn c1 ehn1 k c' s e r _ e' _ ih =>
    rintro n rfl hm h
    obtain ⟨h1, h2, h3, -⟩ := h.iter3 hm e'
    obtain ⟨h4, h5⟩ := ih hs h2 ((FMI3.iter_frame okOrError e').emu.trans hm) h1
    rw [Nat.add_assoc, Nat.add_comm 1] at h4 h5
    exact ⟨h4, fun _ => h5 (h3 rfl)⟩
  | leave _ e' =>
    rintro n rfl hm h
    obtain ⟨h1, h2, -, h3⟩ := h.iter3 hm e'
    exact ⟨h1, fun _ => ⟨by omega, fun _ => rfl⟩⟩
  | error => exact absurd rfl hs

end Verif.Stair
