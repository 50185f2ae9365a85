import Verif.Lemmas.DoStep
import Verif.Spec.Session

/-! # The time in a session -/

set_option linter.unusedSectionVars false

namespace Verif
variable {F D : Type} [Arith F] {m : Model F D}

/-- `n` solver steps lead from the times `t` to `t'`. -/
structure Advanced (h : F) (t t' : Times F) (n : Nat) : Prop where
  startTime : t'.startTime = t.startTime
  nSteps : t'.nSteps = if n = 0 then t.nSteps else (t.nSteps + n) % 2 ^ 64
  time : t'.time = if n = 0 then t.time else gridPoint t.startTime h t'.nSteps

theorem Advanced.refl (h : F) (t : Times F) : Advanced h t t 0 := ⟨rfl, rfl, rfl⟩

theorem Advanced.of_eq {h : F} {t t' t'' : Times F} {n : Nat} (a : Advanced h t t' n)
    (h1 : t''.startTime = t'.startTime) (h2 : t''.nSteps = t'.nSteps) (h3 : t''.time = t'.time) :
    Advanced h t t'' n :=
  ⟨h1.trans a.startTime, h2.trans a.nSteps, by rw [h3, a.time, h2]⟩

theorem Advanced.one (m : Model F D) (c : Comp F D) :
    Advanced m.h c.times (advanceTime m c).times 1 := ⟨rfl, rfl, rfl⟩

theorem Advanced.trans {h : F} {t t' t'' : Times F} {n k : Nat} (a : Advanced h t t' n)
    (b : Advanced h t' t'' k) : Advanced h t t'' (n + k) := by
  obtain ⟨a1, a2, a3⟩ := a
  obtain ⟨b1, b2, b3⟩ := b
  by_cases hn : n = 0
  · subst hn
    simp only [if_true, Nat.zero_add] at a2 a3 ⊢
    exact ⟨b1.trans a1, by rw [b2, a2], by rw [b3, a3, a1]⟩
  · by_cases hk : k = 0
    · subst hk
      simp only [if_true, Nat.add_zero] at b2 b3 ⊢
      exact ⟨b1.trans a1, by rw [b2, a2], by rw [b3, a3, b2]⟩
    · have hnk : n + k ≠ 0 := by omega
      simp only [if_neg hn, if_neg hk] at a2 a3 b2 b3
      refine ⟨b1.trans a1, ?_, ?_⟩
      · rw [if_neg hnk, b2, a2]; omega
      · rw [if_neg hnk, b3, a1]

/-- Points reached without wrap-around of the step counter are ordered. -/
theorem Advanced.mono {h : F} {t t1 t2 : Times F} {n k : Nat} (a : Advanced h t t1 n)
    (b : Advanced h t1 t2 k) (h0 : t.nSteps = 0) (ht : t.time = t.startTime)
    (hn : n + k < 2 ^ 64) (hg : MonotoneGrid t.startTime h) : (t1.time <=. t2.time) = true := by
  have ab := a.trans b
  by_cases hk : n + k = 0
  · have : n = 0 := by omega
    subst this
    have : k = 0 := by omega
    subst this
    have h1 := a.time
    have h2 := b.time
    simp only [if_true] at h1 h2
    rw [h2, h1, ht]
    exact hg.refl
  · have e2 := ab.time
    have s2 := ab.nSteps
    rw [if_neg hk, h0, Nat.zero_add, Nat.mod_eq_of_lt hn] at s2
    rw [if_neg hk, s2] at e2
    have e1 := a.time
    have s1 := a.nSteps
    rw [e2, e1]
    split
    · rw [ht]; exact hg.first _
    · next hn' =>
      rw [if_neg hn', h0, Nat.zero_add, Nat.mod_eq_of_lt (by omega)] at s1
      rw [s1]
      exact hg.mono _ _ (by omega)

theorem Advanced.onGrid {h : F} {t t' : Times F} {n : Nat} (a : Advanced h t t' n)
    (ht : t.time = t.startTime) : OnGrid t.startTime h t'.time := by
  rw [a.time]
  split
  · exact .inl ht
  · next hn =>
    refine .inr ⟨_, ?_, rfl⟩
    rw [a.nSteps, if_neg hn]
    exact Nat.mod_lt _ (by decide)

variable [HasInf F]

theorem createModelInstance_start {ver3 logger iu name token resource loggingOn mem typ}
    {c : Comp F D} {l}
    (h : createModelInstance m ver3 logger iu name token resource loggingOn mem typ = (some c, l)) :
    c.nSteps = 0 ∧ c.startTime = Arith.lit 0 := by
  unfold createModelInstance at h
  simp only at h
  repeat' split at h
  all_goals first | (simp at h; done) | skip
  obtain ⟨h, -⟩ := Prod.mk.inj h
  cases h
  exact ⟨rfl, rfl⟩

namespace FMI2

theorem instantiate_nSteps {name t guid resource functions loggingOn mem} {c : Comp F D} {l}
    (h : instantiate m name t guid resource functions loggingOn mem = (some c, l)) :
    c.nSteps = 0 := by
  unfold instantiate at h
  split at h
  · simp at h
  · simp at h
  · exact (createModelInstance_start h).1

theorem instantiate_startTime {name t guid resource functions loggingOn mem} {c : Comp F D} {l}
    (h : instantiate m name t guid resource functions loggingOn mem = (some c, l)) :
    c.startTime = Arith.lit 0 := by
  unfold instantiate at h
  split at h
  · simp at h
  · simp at h
  · exact (createModelInstance_start h).2

theorem Loop.advanced (hm : OkOrError m) {next : F} {c c' : Comp F D} {n s}
    (h : Loop m next c n c' s) : ∃ k ≤ n, (s ≠ .Error → k = n) ∧ Advanced m.h c.times c'.times k := by
  induction h with
  | done => exact ⟨0, Nat.le_refl _, fun _ => rfl, rfl, rfl, rfl⟩
  | step hr e ht _ ih =>
    obtain ⟨k, hk, hs, a⟩ := ih
    refine ⟨1 + k, by omega, fun h => by have := hs h; omega, ?_⟩
    rw [(iter_frame hm e).times] at a
    exact (Advanced.one m _).trans a
  | discard hr e ht =>
    refine ⟨1, Nat.le_refl _, fun _ => rfl, ?_⟩
    rw [(iter_frame hm e).times]
    exact Advanced.one m _
  | error hr e =>
    rcases iter_eq_ret hm e with ⟨h, -⟩ | ⟨-, c1, rfl, h | h⟩
    · cases h
    · refine ⟨0, by omega, fun h => absurd rfl h, ?_⟩
      have : (c1.setState .terminated).times = c1.times := rfl
      rw [this, h.times]
      exact .refl _ _
    · refine ⟨1, by omega, fun h => absurd rfl h, ?_⟩
      have : (c1.setState .terminated).times = c1.times := rfl
      rw [this, h.times]
      exact Advanced.one m _

theorem doStep_advanced (hm : OkOrError m) {fuel : Nat} {w : World F D} {ccp h : F} :
    (step m fuel w (.doStep ccp h)).All fun x =>
      ∃ n ≤ fuel, Advanced m.h w.inst.times x.1.inst.times n := by
  simp only [step, World.run, doStep, begin, beginFunction]
  rintro ⟨w', s, o⟩ e
  obtain ⟨⟨c, s', u⟩, e1, e⟩ := Outcome.bind_eq_ret.1 e
  cases e
  have triv : ∃ n ≤ fuel, Advanced m.h w.inst.times w.inst.times n := ⟨0, Nat.zero_le _, .refl _ _⟩
  split at e1
  · split at e1
    · cases e1; exact triv
    · split at e1
      · cases e1; exact triv
      · split at e1
        · cases e1; exact triv
        · obtain ⟨n, hn, hl⟩ := Loop.of_eq hm e1
          obtain ⟨k, hk, -, a⟩ := hl.advanced hm
          exact ⟨k, by omega, a⟩
  · cases e1; exact triv

theorem step_advanced (hm : OkOrError m) {fuel : Nat} {w : World F D} {op : Op F}
    (hop : ¬ EndsSession op) (hs : w.inst.ctx.state ∉ [Mode.eventMode, .continuousTimeMode]) :
    (step m fuel w op).All fun x => ∃ n ≤ fuel, Advanced m.h w.inst.times x.1.inst.times n := by
  by_cases hd : op.fn = .doStep
  · cases op <;> simp only [Op.fn, reduceCtorEq] at hd
    exact doStep_advanced hm
  · rintro ⟨w', s, o⟩ e
    have h := step_times hm hd _ e
    simp only at h ⊢
    refine ⟨0, Nat.zero_le _, ?_⟩
    have : timesAfter w op s = w.inst.times := by
      unfold timesAfter
      split
      · next hok =>
        subst hok
        cases op <;> first | rfl | (exfalso; apply hop; simp [EndsSession, Op.fn]; done) | skip
        case setTime t =>
          exfalso
          obtain ⟨w1, e1, -⟩ := refused m fuel w (.setTime t)
            (by simpa [Spec.allowedIn, Op.fn] using hs)
          rw [e1] at e
          cases e
      · rfl
    rw [h, this]
    exact .refl _ _

/-- No solver step was done before the end of the initialisation. -/
theorem unstepped (m : Model F D) : HistInv m fun c =>
    c.ctx.state = .instantiated ∨ c.ctx.state = .initializationMode →
      c.nSteps = 0 ∧ c.ctx.time = c.startTime where
  lift h _ _ := h
  log _ h := h
  dirty _ h := h
  adv h e := by simp only [advanceTime, Comp.setTime]; intro e'; rcases e with e | e <;> rcases e' with e' | e' <;> rw [e] at e' <;> cases e'
  iu h _ := h
  ncp _ h := h
  nx h := h
  nz h := h
  x _ h := h
  dx _ h := h
  z _ h := h
  prez _ h := h
  flags _ _ h := h
  term h := by simp [Comp.setState]
  setup _ _ h _ := fun e => ⟨(h e).1, rfl⟩
  enterInit h e := fun _ => h (.inl e)
  exitInit h _ := by intro e; simp only [Comp.setState] at e; split at e <;> simp at e
  reset h := by simp [Verif.reset, Comp.setState, Comp.setTime, Comp.setDirty]
  restore _ h := h
  enterEvent h e := by simp [Comp.setState]
  enterCT h e := by simp [Comp.setState]
  setTime _ h e := by
    simp only [Comp.setTime]
    intro e'; rcases e with e | e <;> rw [e] at e' <;> simp at e'

theorem unstepped_reachable (hm : OkOrError m) {t : IType} {w : World F D} (h : Reachable m t w)
    (hs : w.inst.ctx.state = .instantiated ∨ w.inst.ctx.state = .initializationMode) :
    w.inst.nSteps = 0 ∧ w.inst.ctx.time = w.inst.startTime :=
  (Reachable.inv hm (unstepped m) (fun _ _ _ _ _ _ c l h => by
    intro _
    exact ⟨instantiate_nSteps h, (instantiate_ctx h).2.2.trans (instantiate_startTime h).symm⟩)
    h).inst hs

/-- The modes of a Co-Simulation instance. -/
def CSModes (c : Comp F D) : Prop := c.ctx.typ = .coSimulation ∧
  c.ctx.state ∈ [Mode.instantiated, .initializationMode, .stepComplete, .terminated]

theorem csModes (m : Model F D) : HistInv m CSModes :=
  HistInv.mode m .coSimulation (fun s => s ∈ [Mode.instantiated, .initializationMode, .stepComplete, .terminated])
    (by simp) (by simp) (by simp) (by simp) (by simp) (by simp)

theorem CSModes.initial (hm : OkOrError m) {w : World F D} (h : Reachable m .coSimulation w) :
    WInv CSModes w :=
  Reachable.inv hm (csModes m) (fun _ _ _ _ _ _ c l h => by
    obtain ⟨h1, h2, -⟩ := instantiate_ctx h
    exact ⟨h1, by simp [h2]⟩) h

/-- Any calls that do not end the session. -/
theorem run_advanced (hm : OkOrError m) {fuel : Nat} : ∀ (ops : List (Op F)) {w : World F D},
    WInv CSModes w → (∀ op ∈ ops, ¬ EndsSession op) →
    (run m fuel w ops).All fun x => WInv CSModes x.1 ∧
      ∃ n ≤ fuel * ops.length, Advanced m.h w.inst.times x.1.inst.times n := by
  intro ops
  induction ops with
  | nil => intro w hw _; exact Outcome.all_ret.2 ⟨hw, 0, Nat.zero_le _, .refl _ _⟩
  | cons op ops ih =>
    intro w hw hX
    unfold run
    have hs : w.inst.ctx.state ∉ [Mode.eventMode, .continuousTimeMode] := by
      have := hw.inst.2
      intro h
      simp only [List.mem_cons, List.not_mem_nil, or_false] at this h
      rcases h with h | h <;> rw [h] at this <;> simp at this
    rintro ⟨w', outs⟩ e
    obtain ⟨⟨w1, s, o⟩, e1, e⟩ := Outcome.bind_eq_ret.1 e
    obtain ⟨⟨w2, l⟩, e2, e⟩ := Outcome.bind_eq_ret.1 e
    cases e
    obtain ⟨n, hn, a⟩ := step_advanced hm (hX op (by simp)) hs _ e1
    obtain ⟨h2, k, hk, b⟩ := ih (step_inv hm (csModes m) hw op _ e1) (fun op h => hX op (by simp [h])) _ e2
    refine ⟨h2, n + k, ?_, a.trans b⟩
    simp only [List.length_cons, Nat.mul_succ]
    omega

theorem SessionStart.times (hm : OkOrError m) {start : F} {w : World F D}
    (h : SessionStart m start w) : WInv CSModes w ∧ w.inst.times.nSteps = 0 ∧
      w.inst.times.time = start ∧ w.inst.times.startTime = start := by
  cases h with
  | @new name guid resource functions loggingOn mem c l _ e hw =>
    obtain ⟨h1, h2, h3⟩ := instantiate_ctx e
    refine ⟨.initial hw ⟨h1, by simp [h2]⟩, ?_⟩
    simp only [Comp.times, hw.inst]
    exact ⟨instantiate_nSteps e, h3, instantiate_startTime e⟩
  | reset hr e =>
    refine ⟨step_inv hm (csModes m) (CSModes.initial hm hr) _ _ e, ?_⟩
    have := step_times hm (by simp [Op.fn]) _ e
    simp only [timesAfter] at this
    rw [this]
    exact ⟨rfl, rfl, rfl⟩
  | @setup _ w' _ _ d stop _ hr e =>
    refine ⟨step_inv hm (csModes m) (CSModes.initial hm hr) _ _ e, ?_⟩
    have := step_times hm (by simp [Op.fn]) _ e
    simp only [timesAfter] at this
    rw [this]
    refine ⟨(unstepped_reachable hm hr (.inl ?_)).1, rfl, rfl⟩
    refine Classical.byContradiction fun hs => ?_
    obtain ⟨w1, e1, -⟩ := refused m _ w' (.setupExperiment start d stop)
      (by simpa [Spec.allowedIn, Op.fn] using hs)
    rw [e1] at e
    cases e

end FMI2

namespace FMI3

theorem Loop.advanced (hm : OkOrError m) {next : F} {c c' : Comp F D} {ehn n s e r}
    (h : Loop m next c ehn n c' s e r) :
    ∃ k ≤ n, (s ≠ .Error → k = n) ∧ Advanced m.h c.times c'.times k := by
  induction h with
  | done => exact ⟨0, Nat.le_refl _, fun _ => rfl, rfl, rfl, rfl⟩
  | step hr e _ ih =>
    obtain ⟨k, hk, hs, a⟩ := ih
    refine ⟨1 + k, by omega, fun h => by have := hs h; omega, ?_⟩
    rw [(iter_frame hm e).times] at a
    exact (Advanced.one m _).trans a
  | leave hr e =>
    refine ⟨1, Nat.le_refl _, fun _ => rfl, ?_⟩
    rw [(iter_frame hm e).times]
    exact Advanced.one m _
  | error hr e =>
    rcases iter_eq_ret hm e with ⟨h, -⟩ | ⟨-, c1, rfl, h | h⟩
    · cases h
    · refine ⟨0, by omega, fun h => absurd rfl h, ?_⟩
      have : (c1.setState .terminated).times = c1.times := rfl
      rw [this, h.times]
      exact .refl _ _
    · refine ⟨1, by omega, fun h => absurd rfl h, ?_⟩
      have : (c1.setState .terminated).times = c1.times := rfl
      rw [this, h.times]
      exact Advanced.one m _

theorem doStep_advanced (hm : OkOrError m) {fuel : Nat} {w : World F D} {ccp h : F} {out} :
    (step m fuel w (.doStep ccp h out)).All fun x =>
      ∃ n ≤ fuel, Advanced m.h w.inst.times x.1.inst.times n := by
  simp only [step, World.run, doStep, begin, beginFunction]
  rintro ⟨w', s, o⟩ e
  obtain ⟨⟨c, s', u⟩, e1, e⟩ := Outcome.bind_eq_ret.1 e
  cases e
  have triv : ∃ n ≤ fuel, Advanced m.h w.inst.times w.inst.times n := ⟨0, Nat.zero_le _, .refl _ _⟩
  split at e1
  · split at e1
    · cases e1; exact triv
    · split at e1
      · cases e1; exact triv
      · split at e1
        · cases e1; exact triv
        · split at e1
          · cases e1
          · obtain ⟨n, c1, s1, ehn, r, hn, hl, hf⟩ := Loop.of_eq hm e1
            obtain ⟨k, hk, -, a⟩ := hl.advanced hm
            refine ⟨k, by omega, ?_⟩
            unfold finish at hf
            split at hf
            · unfold doStepEnd at hf
              split at hf
              · cases hf
              · cases hf; exact a.of_eq rfl rfl rfl
            · cases hf; exact a
  · cases e1; exact triv

theorem step_advanced (hm : OkOrError m) {fuel : Nat} {w : World F D} {op : Op F}
    (hop : ¬ EndsSession op) (hs : op.fn ≠ .setTime) :
    (step m fuel w op).All fun x => ∃ n ≤ fuel, Advanced m.h w.inst.times x.1.inst.times n := by
  by_cases hd : op.fn = .doStep
  · cases op <;> simp only [Op.fn, reduceCtorEq] at hd
    exact doStep_advanced hm
  · rintro ⟨w', s, o⟩ e
    have h := step_times hm hd _ e
    simp only at h ⊢
    refine ⟨0, Nat.zero_le _, ?_⟩
    have : timesAfter w op s = w.inst.times := by
      unfold timesAfter
      split
      · next hok =>
        cases op <;> first | rfl | (exfalso; apply hop; simp [EndsSession, Op.fn]; done) | skip
        case setTime t => exact absurd rfl hs
      · rfl
    rw [h, this]
    exact .refl _ _

/-- No solver step was done before the end of the initialisation. -/
theorem unstepped (m : Model F D) : HistInv m fun c =>
    c.ctx.state ∈ [Mode.instantiated, .configurationMode, .initializationMode] →
      c.nSteps = 0 ∧ c.ctx.time = c.startTime where
  lift h _ _ := h
  log _ h := h
  dirty _ h := h
  adv h e := by
    simp only [advanceTime, Comp.setTime]
    intro e'
    rcases e with e | e <;> rw [e] at e' <;> simp at e'
  iu h _ := h
  ncp _ h := h
  nx h := h
  nz h := h
  x _ h := h
  dx _ h := h
  z _ h := h
  prez _ h := h
  flags _ _ h := h
  term h := by simp [Comp.setState]
  enterInit _ _ h e := fun _ => ⟨(h (by simp [e])).1, rfl⟩
  exitInit h _ := by
    intro e
    simp only [Comp.setState, stateAfterInit] at e
    split at e
    · simp at e
    · split at e <;> simp at e
    · simp at e
  enterConfig h e := by
    simp only [Comp.setState]
    split
    · next h' => exact fun _ => h (by simp [h'])
    · simp
  exitConfig h e := by
    simp only [Comp.setState, stateAfterConfig]
    split
    · next h' => exact fun _ => h (by simp [h'])
    · split <;> simp
  reset h := by simp [Verif.reset, Comp.setState, Comp.setTime, Comp.setDirty]
  restore _ h := h
  enterEvent h e := by simp [Comp.setState]
  enterCT h e := by simp [Comp.setState]
  enterStep h _ := by simp [Comp.setState]
  setTime _ h e := by
    simp only [Comp.setTime]
    intro e'; rcases e with e | e <;> rw [e] at e' <;> simp at e'

theorem New.nSteps {t : IType} {c : Comp F D} (h : New m t c) : c.nSteps = 0 := by
  obtain ⟨_, _, _, _, _, _, _, c₀, _, _, _, _, _, _, e, rfl⟩ := h.created
  exact (createModelInstance_start e).1

theorem New.startTime {t : IType} {c : Comp F D} (h : New m t c) : c.startTime = Arith.lit 0 := by
  obtain ⟨_, _, _, _, _, _, _, c₀, _, _, _, _, _, _, e, rfl⟩ := h.created
  exact (createModelInstance_start e).2

theorem unstepped_reachable (hm : OkOrError m) {t : IType} {w : World F D} (h : Reachable m t w)
    (hs : w.inst.ctx.state ∈ [Mode.instantiated, .configurationMode, .initializationMode]) :
    w.inst.nSteps = 0 ∧ w.inst.ctx.time = w.inst.startTime :=
  (Reachable.inv hm (unstepped m) (fun c h _ => ⟨h.nSteps, h.ctx.2.2.trans h.startTime.symm⟩)
    h).inst hs

/-- Any calls that do not end the session. -/
theorem run_advanced (hm : OkOrError m) {fuel : Nat} : ∀ (ops : List (Op F)) {w : World F D},
    (∀ op ∈ ops, ¬ EndsSession op ∧ op.fn ≠ .setTime) →
    (run m fuel w ops).All fun x =>
      ∃ n ≤ fuel * ops.length, Advanced m.h w.inst.times x.1.inst.times n := by
  intro ops
  induction ops with
  | nil => intro w _; exact Outcome.all_ret.2 ⟨0, Nat.zero_le _, .refl _ _⟩
  | cons op ops ih =>
    intro w hX
    unfold run
    rintro ⟨w', outs⟩ e
    obtain ⟨⟨w1, s, o⟩, e1, e⟩ := Outcome.bind_eq_ret.1 e
    obtain ⟨⟨w2, l⟩, e2, e⟩ := Outcome.bind_eq_ret.1 e
    cases e
    obtain ⟨n, hn, a⟩ := step_advanced hm (hX op (by simp)).1 (hX op (by simp)).2 _ e1
    obtain ⟨k, hk, b⟩ := ih (fun op h => hX op (by simp [h])) _ e2
    refine ⟨n + k, ?_, a.trans b⟩
    simp only [List.length_cons, Nat.mul_succ]
    omega

theorem SessionStart.times (hm : OkOrError m) {start : F} {w : World F D}
    (h : SessionStart m start w) : w.inst.times.nSteps = 0 ∧
      w.inst.times.time = start ∧ w.inst.times.startTime = start := by
  cases h with
  | @init _ w' _ _ d stop _ hr e =>
    have := step_times hm (by simp [Op.fn]) _ e
    simp only [timesAfter] at this
    rw [this]
    refine ⟨(unstepped_reachable hm hr ?_).1, rfl, rfl⟩
    suffices w'.inst.ctx.state = .instantiated by simp [this]
    refine Classical.byContradiction fun hs => ?_
    obtain ⟨w1, e1, -⟩ := refused m _ w' (.enterInitializationMode start d stop)
      (by simp) (by simpa [Spec.allowedIn, Op.fn] using hs)
    rw [e1] at e
    cases e

end FMI3
end Verif
