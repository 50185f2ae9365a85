import Verif.Lemmas.Reading
import Verif.Lemmas.Ready
import Verif.Lemmas.Keep
import Verif.Lemmas.Grid
import Verif.Lemmas.Fuel
import Verif.Spec.Passive

/-!
# Co-Simulation trajectories

* `step_passive`: calls that do not interfere keep the data.
* `run_steps`: for an FMU without events a sequence of calls that do not interfere does a number of
  forward Euler steps.
-/

set_option linter.unusedSectionVars false

namespace Verif
variable {F D : Type} [Arith F] [HasInf F] {m : Model F D} {upd : D → D}

/-- The data (up to `upd`) and the event flags are those of `c₀`. -/
structure Kept (upd : D → D) (c₀ c : Comp F D) : Prop where
  data : upd c.mv.data = upd c₀.mv.data
  term : c.mv.terminateSimulation = c₀.mv.terminateSimulation
  netd : c.mv.nextEventTimeDefined = c₀.mv.nextEventTimeDefined
  net : c.mv.nextEventTime = c₀.mv.nextEventTime
  emu : c.eventModeUsed = c₀.eventModeUsed
  era : c.earlyReturnAllowed = c₀.earlyReturnAllowed

theorem Kept.refl (c : Comp F D) : Kept upd c c := ⟨rfl, rfl, rfl, rfl, rfl, rfl⟩

/-- The functions of `model.c` that change nothing, for an FMU that may have no event. -/
def Model.still (m : Model F D) (f : MFn) : Prop :=
  f ∈ MFn.reading ∨ f = .event ∧ m.eventUpdate = none

theorem Kept.quiet (he : m.Eff) (hr : m.ReadsUpTo upd) (c₀ : Comp F D) :
    Quiet m m.still (Kept upd c₀) where
  lift := by
    intro c f mv' s h hT e
    rcases hT with hT | ⟨rfl, hn⟩
    · have := he _ _ _ _ _ e
      obtain ⟨h1, -, -, h4, h5⟩ := this.flags (by rintro rfl; exact absurd hT (by decide))
      exact ⟨(hr _ _ _ _ _ hT e).trans h.data, h1.trans h.term, h4.trans h.netd, h5.trans h.net,
        h.emu, h.era⟩
    · cases e with
      | event h' e => rw [hn] at h'; cases h'
  log msg h := by
    unfold Comp.logError logError
    split <;> exact ⟨h.data, h.term, h.netd, h.net, h.emu, h.era⟩
  dirty b h := ⟨h.data, h.term, h.netd, h.net, h.emu, h.era⟩

theorem Kept.flagClosed (c₀ : Comp F D) : FlagClosed (Kept upd c₀) := by
  intro c a b h
  exact ⟨h.data, h.term, h.netd, h.net, h.emu, h.era⟩

namespace FMI2

/-- Everything but passive calls. -/
def notPassive (m : Model F D) (fn : Fn) : Prop :=
  fn ∈ [Fn.setReal, .setInteger, .setBoolean, .setString, .setContinuousStates, .setTime,
    .setFMUstate, .reset, .doStep] ∨
  fn = .newDiscreteStates ∧ m.eventUpdate ≠ none

theorem Kept.callInv (he : m.Eff) (hr : m.ReadsUpTo upd) (c₀ : Comp F D) :
    CallInvX (notPassive m) m.still m (fun _ => True) (Kept upd c₀) :=
  { Kept.quiet he hr c₀ with
    calls := by
      intro fn hX f hf
      by_cases h : m.eventUpdate = none
      · cases fn <;> simp [notPassive, Fn.calls, Model.still, MFn.reading, h] at hX hf ⊢ <;>
          first | (subst hf; simp) | (rcases hf with rfl | rfl <;> simp)
      · cases fn <;> simp [notPassive, Fn.calls, Model.still, MFn.reading, h] at hX hf ⊢ <;>
          first | (subst hf; simp) | (rcases hf with rfl | rfl <;> simp)
    step := fun h => absurd (by simp [notPassive]) h
    nx := fun _ _ h => ⟨h.data, h.term, h.netd, h.net, h.emu, h.era⟩
    nz := fun _ _ h => ⟨h.data, h.term, h.netd, h.net, h.emu, h.era⟩
    prez := fun _ _ _ h => ⟨h.data, h.term, h.netd, h.net, h.emu, h.era⟩
    term := fun h => ⟨h.data, h.term, h.netd, h.net, h.emu, h.era⟩
    setup := fun _ _ _ _ h _ => ⟨h.data, h.term, h.netd, h.net, h.emu, h.era⟩
    enterInit := fun _ _ h _ => ⟨h.data, h.term, h.netd, h.net, h.emu, h.era⟩
    reset := fun h => absurd (by simp [notPassive]) h
    restore := fun h => absurd (by simp [notPassive]) h
    enterEvent := fun _ _ h _ => ⟨h.data, h.term, h.netd, h.net, h.emu, h.era⟩
    enterCT := fun _ _ h _ => ⟨h.data, h.term, h.netd, h.net, h.emu, h.era⟩
    setTime := fun h => absurd (by simp [notPassive]) h
    exitInit := fun _ _ h _ => ⟨h.data, h.term, h.netd, h.net, h.emu, h.era⟩ }

/-- Calls that do not interfere and make no step keep the data. -/
theorem step_passive (he : m.Eff) (hr : m.ReadsUpTo upd) {fuel : Nat} {w : World F D} {op : Op F}
    (hop : ¬ notPassive m op.fn) :
    (step m fuel w op).All fun x => Kept upd w.inst x.1.inst :=
  step_keepX he.okOrError (Kept.callInv he hr w.inst) (fun _ _ _ _ => trivial) (.refl _)
    (fun _ => Kept.flagClosed _) hop

end FMI2

namespace FMI3

/-- Everything but passive calls. -/
def notPassive (m : Model F D) (fn : Fn) : Prop :=
  (∃ t, fn = .set t) ∨ fn ∈ [Fn.setClock, .getClock, .getIntervalDecimal,
    .activateModelPartition, .setContinuousStates, .setTime, .setFMUState, .reset, .doStep] ∨
  fn = .updateDiscreteStates ∧ m.eventUpdate ≠ none

theorem Kept.callInv (he : m.Eff) (hr : m.ReadsUpTo upd) (c₀ : Comp F D) :
    CallInvX (notPassive m) m.still m (fun _ => True) (Kept upd c₀) :=
  { Kept.quiet he hr c₀ with
    calls := by
      intro fn hX f hf
      by_cases h : m.eventUpdate = none
      · cases fn <;> simp [notPassive, Fn.calls, Model.still, MFn.reading, h] at hX hf ⊢ <;>
          first | (subst hf; simp) | (rcases hf with rfl | rfl <;> simp)
      · cases fn <;> simp [notPassive, Fn.calls, Model.still, MFn.reading, h] at hX hf ⊢ <;>
          first | (subst hf; simp) | (rcases hf with rfl | rfl <;> simp)
    step := fun h => absurd (by simp [notPassive]) h
    nx := fun _ _ h => ⟨h.data, h.term, h.netd, h.net, h.emu, h.era⟩
    nz := fun _ _ h => ⟨h.data, h.term, h.netd, h.net, h.emu, h.era⟩
    prez := fun _ _ _ h => ⟨h.data, h.term, h.netd, h.net, h.emu, h.era⟩
    term := fun h => ⟨h.data, h.term, h.netd, h.net, h.emu, h.era⟩
    enterInit := fun _ _ _ _ h _ => ⟨h.data, h.term, h.netd, h.net, h.emu, h.era⟩
    reset := fun h => absurd (by simp [notPassive]) h
    restore := fun h => absurd (by simp [notPassive]) h
    enterEvent := fun _ _ h _ => ⟨h.data, h.term, h.netd, h.net, h.emu, h.era⟩
    enterCT := fun _ _ h _ => ⟨h.data, h.term, h.netd, h.net, h.emu, h.era⟩
    setTime := fun h => absurd (by simp [notPassive]) h
    enterConfig := fun _ _ h _ => ⟨h.data, h.term, h.netd, h.net, h.emu, h.era⟩
    exitConfig := fun _ _ h _ => ⟨h.data, h.term, h.netd, h.net, h.emu, h.era⟩
    enterStep := fun _ _ h _ => ⟨h.data, h.term, h.netd, h.net, h.emu, h.era⟩
    exitInit := fun _ _ h _ => ⟨h.data, h.term, h.netd, h.net, h.emu, h.era⟩ }

/-- Calls that do not interfere and make no step keep the data. -/
theorem step_passive (he : m.Eff) (hr : m.ReadsUpTo upd) {fuel : Nat} {w : World F D} {op : Op F}
    (hop : ¬ notPassive m op.fn) :
    (step m fuel w op).All fun x => Kept upd w.inst x.1.inst :=
  step_keepX he.okOrError (Kept.callInv he hr w.inst) (fun _ _ _ _ => trivial) (.refl _)
    (fun _ => Kept.flagClosed _) hop

end FMI3

/-- `n` forward Euler steps. -/
def Ode.steps (o : Ode m) : Nat → D → D
  | 0, d => d
  | n + 1, d => o.steps n (o.euler d)

theorem Ode.steps_calc (o : Ode m) (n : Nat) {d d' : D} (h : o.calc' d = o.calc' d') :
    o.calc' (o.steps n d) = o.calc' (o.steps n d') := by
  induction n generalizing d d' with
  | zero => exact h
  | succ n ih =>
    refine ih ?_
    rw [← o.euler_calc d, ← o.euler_calc d', h]

theorem Ode.steps_add (o : Ode m) (n k : Nat) (d : D) :
    o.steps (n + k) d = o.steps k (o.steps n d) := by
  induction n generalizing d with
  | zero => rw [Nat.zero_add]; rfl
  | succ n ih => rw [Nat.succ_add]; exact ih _

theorem Ode.Configured.ready {o : Ode m} {c : Comp F D} (h : o.Configured c) (hl : c.Lens m) :
    o.Ready c := ⟨hl, h.nx, h.nz⟩

/-- A solver step of an FMU without events. -/
theorem FMI2.iter_steps (o : Ode m) (hm : OkOrError m) (hn : m.eventUpdate = none) {c c' : Comp F D}
    (h : o.Ready c) {b} (e : FMI2.iter m c = .ret (c', .OK, b)) :
    o.Ready c' ∧ o.calc' c'.mv.data = o.calc' (o.euler c.mv.data) := by
  rcases FMI2.iter_eq_ret hm e with ⟨-, c1, se, te, e1, h1 | ⟨eu, h1, -⟩⟩ | ⟨h, -⟩
  · obtain ⟨rfl, -⟩ := h1
    obtain ⟨c2, e2, hr, -, -, hd, -⟩ := o.fixedStep_eq h
    rw [e2] at e1
    cases e1
    exact ⟨hr, hd⟩
  · rw [hn] at h1; cases h1
  · cases h

theorem FMI2.Loop.steps (o : Ode m) (hm : OkOrError m) (hn : m.eventUpdate = none) {next : F}
    {c c' : Comp F D} {n s} (h : FMI2.Loop m next c n c' s) (hs : s ≠ .Error) (hr : o.Ready c) :
    o.Ready c' ∧ o.calc' c'.mv.data = o.calc' (o.steps n c.mv.data) := by
  induction h with
  | done => exact ⟨⟨⟨hr.lens.z, hr.lens.prez, hr.lens.x, hr.lens.dx⟩, hr.nx, hr.nz⟩, rfl⟩
  | step _ e _ _ ih =>
    obtain ⟨h1, h2⟩ := FMI2.iter_steps o hm hn hr e
    obtain ⟨h3, h4⟩ := ih hs h1
    exact ⟨h3, h4.trans (o.steps_calc _ h2)⟩
  | discard _ e => exact FMI2.iter_steps o hm hn hr e
  | error => exact absurd rfl hs

theorem FMI3.iter_steps (o : Ode m) (hm : OkOrError m) (hn : m.eventUpdate = none) {c c' : Comp F D}
    {ehn b} (h : o.Ready c) (e : FMI3.iter m c ehn = .ret (c', .OK, b)) :
    o.Ready c' ∧ o.calc' c'.mv.data = o.calc' (o.euler c.mv.data) := by
  rcases FMI3.iter_eq_ret hm e with ⟨-, c0, ehn0, c1, se, te, e0, e1, h1⟩ | ⟨h, -⟩
  · unfold FMI3.pendingEvent at e0
    rw [hn] at e0
    cases e0
    rcases h1 with ⟨-, rfl, -⟩ | ⟨h1, -⟩ | ⟨eu, h1, -⟩
    · obtain ⟨c2, e2, hr, -, -, hd, -⟩ := o.fixedStep_eq h
      rw [e2] at e1
      cases e1
      exact ⟨hr, hd⟩
    · simp [hn] at h1
    · rw [hn] at h1; cases h1
  · cases h

theorem FMI3.Loop.steps (o : Ode m) (hm : OkOrError m) (hn : m.eventUpdate = none) {next : F}
    {c c' : Comp F D} {ehn n s e r} (h : FMI3.Loop m next c ehn n c' s e r) (hs : s ≠ .Error)
    (hr : o.Ready c) : o.Ready c' ∧ o.calc' c'.mv.data = o.calc' (o.steps n c.mv.data) := by
  induction h with
  | done => exact ⟨⟨hr.lens, hr.nx, hr.nz⟩, rfl⟩
  | step _ e _ ih =>
    obtain ⟨h1, h2⟩ := FMI3.iter_steps o hm hn hr e
    obtain ⟨h3, h4⟩ := ih hs h1
    exact ⟨h3, h4.trans (o.steps_calc _ h2)⟩
  | leave _ e => exact FMI3.iter_steps o hm hn hr e
  | error => exact absurd rfl hs

namespace FMI2

theorem not_notPassive {op : Op F} (h : ¬ Interferes op) (hd : op.fn ≠ .doStep)
    (he : op.fn = .newDiscreteStates → m.eventUpdate = none) : ¬ notPassive m op.fn := by
  rintro (h' | ⟨h', hn⟩)
  · apply h
    simp only [Interferes, List.mem_cons, List.not_mem_nil, or_false] at h' ⊢
    simp only [hd, or_false] at h'
    rcases h' with h' | h' | h' | h' | h' | h' | h' | h' <;> simp [h']
  · exact hn (he h')

theorem Interferes.of_ends {op : Op F} (h : EndsSession op) : Interferes op := by
  rcases h with h | h | h <;> simp [Interferes, h]

/-- Times after a passive call. -/
theorem passive_times (hm : OkOrError m) {fuel : Nat} {w w' : World F D} {op : Op F} {s o}
    (h : ¬ Interferes op) (hd : op.fn ≠ .doStep) (e : step m fuel w op = .ret (w', s, o)) :
    w'.inst.times = w.inst.times := by
  have := step_times hm hd _ e
  simp only at this
  rw [this]
  unfold timesAfter
  split
  · cases op <;> first | rfl | exact absurd (by simp [Interferes, Op.fn]) h
  · rfl

/-- Calls that do not interfere do a number of forward Euler steps. -/
theorem run_steps (o : Ode m) (hm : RefFMU2 m) (hr : m.ReadsUpTo o.calc') (hn : m.eventUpdate = none)
    {fuel : Nat} {t : IType} : ∀ (ops : List (Op F)) {w w' : World F D} {outs}, Reachable m t w →
    (∀ op ∈ ops, ¬ Interferes op) → run m fuel w ops = .ret (w', outs) →
    (∀ p ∈ outs, p.1 ≠ .Error) →
    ∃ n ≤ fuel * ops.length, o.calc' w'.inst.mv.data = o.calc' (o.steps n w.inst.mv.data) ∧
      Advanced m.h w.inst.times w'.inst.times n := by
  have hk := hm.eff.okOrError
  intro ops
  induction ops with
  | nil => intro w w' outs _ _ e _; cases e; exact ⟨0, Nat.zero_le _, rfl, .refl _ _⟩
  | cons op ops ih =>
    intro w w' outs h hops e hs
    unfold run at e
    obtain ⟨⟨w1, s, x⟩, e1, e⟩ := Outcome.bind_eq_ret.1 e
    obtain ⟨⟨w2, l⟩, e2, e⟩ := Outcome.bind_eq_ret.1 e
    cases e
    have h1 := Reachable.call hk h e1
    obtain ⟨k, hkn, hd, ha⟩ := ih h1 (fun op h => hops op (by simp [h])) e2
      (fun p h => hs p (by simp [h]))
    suffices ∃ n ≤ fuel, o.calc' w1.inst.mv.data = o.calc' (o.steps n w.inst.mv.data) ∧
        Advanced m.h w.inst.times w1.inst.times n by
      obtain ⟨n, hnf, hd1, ha1⟩ := this
      refine ⟨n + k, ?_, ?_, ha1.trans ha⟩
      · simp only [List.length_cons, Nat.mul_succ]; omega
      · rw [hd, o.steps_add]; exact o.steps_calc k hd1
    by_cases hdo : op.fn = .doStep
    · cases op <;> simp only [Op.fn, reduceCtorEq] at hdo
      obtain ⟨hst, -, n, hnf, hl⟩ := doStep_loop hk e1 (hs _ (List.mem_cons_self ..))
      obtain ⟨hl', hi⟩ := h.ready o hm
      obtain ⟨-, hd1⟩ := hl.steps o hk hn (hs _ (List.mem_cons_self ..)) ((Ode.conf_not_early hi hst).ready hl')
      obtain ⟨k', -, hk', ha1⟩ := hl.advanced hk
      cases hk' (hs _ (List.mem_cons_self ..))
      exact ⟨n, hnf, hd1, ha1⟩
    · have hp := hops op (by simp)
      have := step_passive hm.eff hr (not_notPassive hp hdo fun _ => hn) _ e1
      refine ⟨0, Nat.zero_le _, this.data, ?_⟩
      rw [passive_times hk hp hdo e1]
      exact .refl _ _

end FMI2

namespace FMI3

theorem not_notPassive {op : Op F} (h : ¬ Interferes op) (hd : op.fn ≠ .doStep)
    (he : op.fn = .updateDiscreteStates → m.eventUpdate = none) : ¬ notPassive m op.fn := by
  rintro (h' | h' | ⟨h', hn⟩)
  · exact h (.inl h')
  · apply h
    simp only [Interferes, List.mem_cons, List.not_mem_nil, or_false] at h' ⊢
    simp only [hd, or_false] at h'
    right
    rcases h' with h' | h' | h' | h' | h' | h' | h' | h' <;> simp [h']
  · exact hn (he h')

/-- Times after a passive call. -/
theorem passive_times (hm : OkOrError m) {fuel : Nat} {w w' : World F D} {op : Op F} {s o}
    (h : ¬ Interferes op) (hd : op.fn ≠ .doStep) (e : step m fuel w op = .ret (w', s, o)) :
    w'.inst.times = w.inst.times := by
  have := step_times hm hd _ e
  simp only at this
  rw [this]
  unfold timesAfter
  split
  · cases op <;> first | rfl | exact absurd (by simp [Interferes, Op.fn]) h
  · rfl

/-- The initialisation is over. -/
def Started (c : Comp F D) : Prop :=
  c.ctx.state ∉ [Mode.instantiated, .configurationMode, .initializationMode]

/-- Calls that start over. -/
def restarts (fn : Fn) : Prop := fn ∈ [Fn.enterInitializationMode, .setFMUState, .reset]

theorem Started.callInv (m : Model F D) :
    CallInvX restarts (fun _ => True) m (fun _ => True) Started where
  lift h _ _ := h
  log _ h := h
  dirty _ h := h
  calls _ _ _ _ := trivial
  step _ :=
    { lift := fun h _ _ => h
      log := fun _ h => h
      dirty := fun _ h => h
      adv := fun h _ => h
      iu := fun h _ => h
      ncp := fun _ h => h
      x := fun _ h => h
      dx := fun _ h => h
      z := fun _ h => h
      prez := fun _ h => h }
  nx _ _ h := h
  nz _ _ h := h
  prez _ _ _ h := h
  term h := by simp [Started, Comp.setState]
  enterInit h := absurd (by simp [restarts]) h
  reset h := absurd (by simp [restarts]) h
  restore h := absurd (by simp [restarts]) h
  enterEvent _ _ _ _ := by simp [Started, Comp.setState]
  enterCT _ _ _ _ := by simp [Started, Comp.setState]
  setTime _ _ _ h _ := h
  enterConfig _ c h e := by
    simp only [Started, Comp.setState] at h ⊢
    split
    · next h' => exact absurd (by simp [h']) h
    · simp
  exitConfig _ c h e := by
    simp only [Started, Comp.setState, stateAfterConfig] at h ⊢
    split
    · next h' => exact absurd (by simp [h']) h
    · split <;> simp
  enterStep _ _ _ _ := by simp [Started, Comp.setState]
  exitInit _ c h e := absurd (by simp [e]) h

theorem step_started (hm : OkOrError m) {fuel : Nat} {w : World F D} {op : Op F}
    (h : Started w.inst) (hop : ¬ restarts op.fn) :
    (step m fuel w op).All fun x => Started x.1.inst :=
  step_keepX hm (Started.callInv m) (fun _ _ _ _ => trivial) h (fun _ _ _ _ h => h) hop

theorem Interferes.of_restarts {op : Op F} (h : restarts op.fn) : Interferes op := by
  simp only [restarts, List.mem_cons, List.not_mem_nil, or_false] at h
  rcases h with h | h | h <;> simp [Interferes, h]

/-- Calls that do not interfere do a number of forward Euler steps. -/
theorem run_steps (o : Ode m) (hm : RefFMU3 m) (hr : m.ReadsUpTo o.calc') (hn : m.eventUpdate = none)
    {fuel : Nat} {t : IType} : ∀ (ops : List (Op F)) {w w' : World F D} {outs},
    ReachableProper m t w → Started w.inst →
    (∀ op ∈ ops, ¬ Interferes op) → run m fuel w ops = .ret (w', outs) →
    (∀ p ∈ outs, p.1 = .OK) →
    ReachableProper m t w' ∧
    ∃ n ≤ fuel * ops.length, o.calc' w'.inst.mv.data = o.calc' (o.steps n w.inst.mv.data) ∧
      Advanced m.h w.inst.times w'.inst.times n := by
  have hk := hm.eff.okOrError
  intro ops
  induction ops with
  | nil => intro w w' outs h _ _ e _; cases e; exact ⟨h, 0, Nat.zero_le _, rfl, .refl _ _⟩
  | cons op ops ih =>
    intro w w' outs h hst hops e hs
    unfold run at e
    obtain ⟨⟨w1, s, x⟩, e1, e⟩ := Outcome.bind_eq_ret.1 e
    obtain ⟨⟨w2, l⟩, e2, e⟩ := Outcome.bind_eq_ret.1 e
    cases e
    cases hs _ (List.mem_cons_self ..)
    have hp := hops op (by simp)
    have h1 := ReachableProper.call h e1 fun _ h' => hst (by simp [h'])
    have hst1 := step_started hk hst (fun h => hp (.of_restarts h)) _ e1
    obtain ⟨hre, k, hkn, hd, ha⟩ := ih h1 hst1 (fun op h => hops op (by simp [h])) e2
      (fun p h => hs p (by simp [h]))
    suffices ∃ n ≤ fuel, o.calc' w1.inst.mv.data = o.calc' (o.steps n w.inst.mv.data) ∧
        Advanced m.h w.inst.times w1.inst.times n by
      obtain ⟨n, hnf, hd1, ha1⟩ := this
      refine ⟨hre, n + k, ?_, ?_, ha1.trans ha⟩
      · simp only [List.length_cons, Nat.mul_succ]; omega
      · rw [hd, o.steps_add]; exact o.steps_calc k hd1
    by_cases hdo : op.fn = .doStep
    · cases op <;> simp only [Op.fn, reduceCtorEq] at hdo
      obtain ⟨hst, n, c', ehn, r, hnf, hl, rfl, -⟩ := doStep_loop hk e1
      simp only [Spec.allowedIn, List.mem_cons, List.not_mem_nil, or_false] at hst
      obtain ⟨hl', hi⟩ := h.ready o hm
      obtain ⟨-, hd1⟩ := hl.steps o hk hn (by simp) ((Ode.conf_not_early hi hst).ready hl')
      obtain ⟨k', -, hk', ha1⟩ := hl.advanced hk
      cases hk' (by simp)
      exact ⟨n, hnf, hd1, ha1.of_eq rfl rfl rfl⟩
    · have := step_passive hm.eff hr (not_notPassive hp hdo fun _ => hn) _ e1
      refine ⟨0, Nat.zero_le _, this.data, ?_⟩
      rw [passive_times hk hp hdo e1]
      exact .refl _ _

theorem ReachableProper.reachable (hm : OkOrError m) {t : IType} {w : World F D}
    (h : ReachableProper m t w) : Reachable m t w := by
  induction h with
  | new h1 h2 => exact ⟨_, _, 0, [], [], h1, h2, rfl⟩
  | call _ e _ ih => exact Reachable.call hm ih e

end FMI3
end Verif
