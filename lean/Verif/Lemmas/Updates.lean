import Verif.Spec.Updates
import Verif.Lemmas.Keep
import Verif.Lemmas.Logging
import Verif.Lemmas.Grid
import Verif.Lemmas.DoStep

/-!
# The calls of the intermediate update callback
-/

set_option linter.unusedSectionVars false

namespace Verif
variable {F D : Type} [Arith F] {m : Model F D}

theorem updateTimes_append : ∀ a b : List (Ev F), updateTimes (a ++ b) = updateTimes a ++ updateTimes b
  | [], b => rfl
  | e :: a, b => by cases e <;> simp [updateTimes, updateTimes_append a b]

theorem updateTimes_none {f : MFn} {ctx : Ctx F} : ∀ {l : List (Ev F)}, (∀ e ∈ l, EvOK f ctx e) → updateTimes l = []
  | [], _ => rfl
  | e :: l, h => by
    have ih := updateTimes_none (l := l) fun e he => h e (List.mem_cons_of_mem _ he)
    have h1 := h e List.mem_cons_self
    cases e <;> first | exact ih | exact h1.elim

/-- What is known of the callback: whether it is provided and the times of its calls. -/
def Hears (b : Bool) (u : List F) (c : Comp F D) : Prop := c.intermediateUpdate = b ∧ c.updateTimes = u

theorem Hears.log {b u} {c : Comp F D} (msg : String) (h : Hears b u c) : Hears b u (c.logError msg) := by
  refine ⟨h.1, ?_⟩
  rw [← h.2]
  unfold Comp.updateTimes Comp.logError Verif.logError
  simp only
  split
  · simp [updateTimes_append, updateTimes]
  · rfl

theorem Hears.quiet (he : m.Eff) (b : Bool) (u : List F) : Quiet m (fun _ => True) (Hears (D := D) b u) where
  lift := by
    rintro c f mv' s ⟨h1, h2⟩ - e
    obtain ⟨l, hl, ho⟩ := (he _ _ _ _ _ e).trace
    refine ⟨h1, ?_⟩
    rw [← h2]
    simp only [Comp.updateTimes]
    rw [hl, updateTimes_append, updateTimes_none ho, List.append_nil]
  log msg h := h.log msg
  dirty _ h := h

theorem Hears.lift {β : Type} (he : m.Eff) {b : Bool} {u : List F} {c c' : Comp F D} (hc : Hears b u c) {r : MRes F D β} {f : MFn} {s a}
    (hr : ∀ mv' s b, r = .ret (mv', s, b) → MStep m f c.ctx c.mv mv' s) (e : c.lift r = .ret (c', s, a)) : Hears b u c' :=
  (Inner.lift he.okOrError (Hears.quiet he b u) hc (f := f) trivial hr _ e).2

theorem Hears.euler (he : m.Eff) {b : Bool} {u : List F} {c : Comp F D} (h : Hears b u c) : Inner (Hears b u) (eulerStep m c) := by
  have hm := he.okOrError
  have hq := Hears.quiet (D := D) he b u
  unfold Verif.eulerStep
  split
  · refine Inner.callCo (Inner.lift hm hq h (f := .getStates) trivial fun _ _ _ e => .getStates e) fun c a h _ => ?_
    have h' : Hears b u { c with x := a.getD c.x } := h
    refine Inner.callCo (Inner.lift hm hq h' (f := .deriv) trivial fun _ _ _ e => .deriv e) fun c a h _ => ?_
    have h' : Hears b u { c with dx := a.getD c.dx, x := eulerUpdate m.h c.nx c.x (a.getD c.dx) } := h
    exact Inner.callCo (Inner.lift hm hq h' (f := .setStates) trivial fun _ _ _ e => .setStates e) fun c a h _ => Inner.ret_ok h
  · exact Inner.ret_ok h

theorem Hears.detect (he : m.Eff) {b : Bool} {u : List F} {c : Comp F D} (h : Hears b u c) : Inner (Hears b u) (detectStateEvent m c) := by
  unfold Verif.detectStateEvent
  split
  · exact Inner.callCo (Inner.lift he.okOrError (Hears.quiet he b u) h (f := .indicators) trivial fun _ _ _ e => .indicators e)
      fun c a h _ => Inner.ret_ok h
  · exact Inner.ret_ok h

/-- The calls made by a solver step that ends at the time `t`. -/
def calls (b : Bool) (t : F) : List F := if b then [t] else []

/-- A solver step calls the callback once, at its end. -/
theorem Hears.fixedStep (he : m.Eff) {b : Bool} {u : List F} {c c' : Comp F D} (h : Hears b u c) {ev}
    (e : doFixedStep m c = .ret (c', .OK, ev)) : Hears b (u ++ calls b c'.ctx.time) c' := by
  rcases doFixedStep_eq_ret e with ⟨c1, c2, se, e1, e2, -, rfl, -⟩ | ⟨-, h, -⟩ | ⟨-, h, -⟩
  · have h1 := (Hears.euler he h _ e1).2
    have h2 : Hears b u (advanceTime m c1) := h1
    have h3 := (Hears.detect he h2 _ e2).2
    obtain ⟨h4, h5⟩ := h3
    simp only at h4 h5
    cases b
    · have : c2.notify = c2 := by unfold Comp.notify; rw [h4]; rfl
      rw [this]
      exact ⟨h4, by simpa [calls] using h5⟩
    · have : c2.notify = { c2 with mv := { c2.mv with trace := c2.mv.trace ++ [.intermediateUpdate c2.ctx.time] } } := by
        unfold Comp.notify; rw [h4]; rfl
      rw [this]
      refine ⟨h4, ?_⟩
      simp only [Comp.updateTimes] at h5 ⊢
      rw [updateTimes_append, h5]
      rfl
  · exact absurd rfl h
  · exact absurd rfl h

/-- `n` solver steps beyond the step `k`. -/
def stepTimes (start h : F) (k n : Nat) : List F := (List.range n).map fun i => gridPoint start h ((k + i + 1) % 2 ^ 64)

theorem stepTimes_succ (start h : F) (k n : Nat) :
    stepTimes start h k (n + 1) = gridPoint start h ((k + 1) % 2 ^ 64) :: stepTimes start h ((k + 1) % 2 ^ 64) n := by
  simp only [stepTimes, List.range_succ_eq_map, List.map_cons, List.map_map, Nat.add_zero]
  congr 1
  refine List.map_congr_left fun i _ => ?_
  simp only [Function.comp]
  congr 1
  omega

theorem stepTimes_add (start h : F) (k n : Nat) : ∀ j,
    stepTimes start h k (j + n) = stepTimes start h k j ++ stepTimes start h (if j = 0 then k else (k + j) % 2 ^ 64) n
  | 0 => by simp [stepTimes]
  | j + 1 => by
    rw [show j + 1 + n = (j + n) + 1 by omega, stepTimes_succ, stepTimes_succ, stepTimes_add _ _ _ _ j, List.cons_append]
    congr 3
    split
    · next h => subst h; simp
    · simp only [Nat.add_eq_zero_iff, Nat.one_ne_zero, and_false, if_false]; omega

namespace FMI3
variable [HasInf F]

theorem iter_hears (he : m.Eff) {b : Bool} {u : List F} {c c' : Comp F D} {ehn o} (h : Hears b u c)
    (e : iter m c ehn = .ret (c', .OK, o)) : Hears b (u ++ calls b c'.ctx.time) c' := by
  have hm := he.okOrError
  rcases iter_eq_ret hm e with ⟨-, c0, e0, c1, se, te, hp, e1, h'⟩ | ⟨h, -⟩
  · have h0 : Hears b u c0 := by
      unfold pendingEvent at hp
      split at hp
      · cases hp; exact h
      · next eu heu =>
        split at hp
        · obtain ⟨⟨c2, s2, v⟩, e2, hp⟩ := Outcome.bind_eq_ret.1 hp
          cases hp
          exact h.lift he (f := .event) (fun _ _ _ e => .event heu e) e2
        · cases hp; exact h
    have h1 := h0.fixedStep he e1
    rcases h' with ⟨-, rfl, -⟩ | ⟨-, -, -, rfl, -⟩ | ⟨eu, heu, -, -, ei, -⟩
    · exact h1
    · exact h1
    · have ht : c'.ctx.time = c1.ctx.time := by
        have := (internalEvent_frame hm heu ei).times
        exact congrArg Times.time this
      rw [ht]
      rcases internalEvent_eq_ret hm heu ei with ⟨-, c2, e2, ⟨-, rfl⟩ | ⟨-, c3, p, e3, rfl⟩⟩ | ⟨h, -⟩
      · exact h1.lift he (f := .event) (fun _ _ _ e => .event heu e) e2
      · have h2 := h1.lift he (f := .event) (fun _ _ _ e => .event heu e) e2
        have h3 := h2.lift he (f := .indicators) (fun _ _ _ e => .indicators e) e3
        exact h3
      · cases h
  · cases h

theorem Loop.hears (he : m.Eff) {next : F} {c c' : Comp F D} {ehn n s e r} (h : Loop m next c ehn n c' s e r) {b : Bool} :
    ∀ {u : List F}, Hears b u c → s = .OK → Hears b (u ++ if b then stepTimes c.startTime m.h c.nSteps n else []) c' := by
  have hm := he.okOrError
  induction h with
  | done => intro u h _; simpa [stepTimes] using h
  | @step c ehn c1 ehn1 n c' s e r _ e1 _ ih =>
    intro u h hs
    have h1 := ih (iter_hears he h e1) hs
    have ht := (iter_frame hm e1).times
    have h2 : c1.startTime = c.startTime := congrArg Times.startTime ht
    have h3 : c1.nSteps = (c.nSteps + 1) % 2 ^ 64 := congrArg Times.nSteps ht
    have h4 : c1.ctx.time = gridPoint c.startTime m.h ((c.nSteps + 1) % 2 ^ 64) := congrArg Times.time ht
    rw [stepTimes_succ]
    rw [h2, h3, h4] at h1
    cases b <;> simpa [calls] using h1
  | @leave c ehn c1 ehn1 _ e1 =>
    intro u h _
    have h1 := iter_hears he h e1
    have ht := (iter_frame hm e1).times
    have h4 : c1.ctx.time = gridPoint c.startTime m.h ((c.nSteps + 1) % 2 ^ 64) := congrArg Times.time ht
    rw [h4] at h1
    cases b <;> simpa [calls, stepTimes] using h1
  | error => intro _ _ h; cases h

/-- No function but `fmi3DoStep` calls the callback. -/
theorem hears_keep (hm : RefFMU3 m) (b : Bool) (u : List F) :
    CallInvX (fun fn => fn = .doStep) (fun _ => True) m (fun _ => True) (Hears (D := D) b u) where
  toQuiet := Hears.quiet hm.eff b u
  calls := fun _ _ _ _ => trivial
  step := fun h => absurd rfl h
  nx := fun _ _ h => h
  nz := fun _ _ h => h
  prez := fun _ _ _ h => h
  term := fun h => h
  enterInit := fun _ _ _ _ h _ => h
  reset := fun _ _ h => Outcome.all_ret.2 ⟨h.1, by
    rw [← h.2]; simp [Comp.updateTimes, Comp.setState, Comp.setTime, Comp.setDirty, hm.start_trace]⟩
  restore := fun _ _ _ h _ => h
  enterEvent := fun _ _ h _ => h
  enterCT := fun _ _ h _ => h
  setTime := fun _ _ _ h _ => h
  enterConfig := fun _ _ h _ => h
  exitConfig := fun _ _ h _ => h
  enterStep := fun _ _ h _ => h
  exitInit := fun _ _ h _ => h

theorem step_hears (hm : RefFMU3 m) {fuel : Nat} {w w' : World F D} {op : Op F} {s o} {b u} (h : Hears b u w.inst) (hd : op.fn ≠ .doStep)
    (e : step m fuel w op = .ret (w', s, o)) : Hears b u w'.inst :=
  step_keepX hm.eff.okOrError (hears_keep hm b u) (fun _ _ _ _ => trivial) h (fun _ _ _ _ h => h) hd _ e

end FMI3
end Verif

namespace Verif
variable {F D : Type} [Arith F] [HasInf F] {m : Model F D}

theorem createModelInstance_hears (hs : ∀ ctx mv, (m.setStartValues ctx mv).trace = mv.trace)
    {ver3 logger iu name token resource loggingOn mem typ} {c : Comp F D} {l}
    (h : createModelInstance m ver3 logger iu name token resource loggingOn mem typ = (some c, l)) : Hears iu [] c := by
  unfold createModelInstance at h
  simp only at h
  repeat' split at h
  all_goals first | (simp at h; done) | skip
  obtain ⟨h, -⟩ := Prod.mk.inj h
  cases h
  refine ⟨rfl, ?_⟩
  simp [Comp.updateTimes, hs, Verif.updateTimes]

/-- Without the callback nothing is heard. -/
theorem Hears.notify {u : List F} {c : Comp F D} (h : Hears false u c) : c.notify = c := by
  unfold Comp.notify; rw [h.1]; rfl

namespace FMI2

theorem deaf (hm : RefFMU2 m) : HistInv m (Hears (D := D) false []) where
  lift h _ e := (Hears.quiet hm.eff false []).lift h trivial e
  log msg h := h.log msg
  dirty _ h := h
  adv h _ := h
  iu h e := absurd (h.1.symm.trans e) (by simp)
  ncp _ h := h
  nx h := h
  nz h := h
  x _ h := h
  dx _ h := h
  z _ h := h
  prez _ h := h
  flags _ _ h := h
  term h := h
  setup _ _ h _ := h
  enterInit h _ := h
  exitInit h _ := h
  reset h := Outcome.all_ret.2 ⟨h.1, by
    rw [← h.2]; simp [Comp.updateTimes, Comp.setState, Comp.setTime, Comp.setDirty, hm.start_trace]⟩
  restore h _ := h
  enterEvent h _ := h
  enterCT h _ := h
  setTime _ h _ := h

end FMI2

namespace FMI3

theorem deaf (hm : RefFMU3 m) : HistInv m (Hears (D := D) false []) where
  lift h _ e := (Hears.quiet hm.eff false []).lift h trivial e
  log msg h := h.log msg
  dirty _ h := h
  adv h _ := h
  iu h e := absurd (h.1.symm.trans e) (by simp)
  ncp _ h := h
  nx h := h
  nz h := h
  x _ h := h
  dx _ h := h
  z _ h := h
  prez _ h := h
  flags _ _ h := h
  term h := h
  enterInit _ _ h _ := h
  exitInit h _ := h
  enterConfig h _ := h
  exitConfig h _ := h
  reset h := Outcome.all_ret.2 ⟨h.1, by
    rw [← h.2]; simp [Comp.updateTimes, Comp.setState, Comp.setTime, Comp.setDirty, hm.start_trace]⟩
  restore h _ := h
  enterEvent h _ := h
  enterCT h _ := h
  enterStep h _ := h
  setTime _ h _ := h

/-- Whether the callback is provided never changes. -/
theorem callback_inv (m : Model F D) (b : Bool) : HistInv m fun c : Comp F D => c.intermediateUpdate = b where
  lift h _ _ := h
  log _ h := h
  dirty _ h := h
  adv h _ := h
  iu h _ := h
  ncp _ h := h
  nx h := h
  nz h := h
  x _ h := h
  dx _ h := h
  z _ h := h
  prez _ h := h
  flags _ _ h := h
  term h := h
  enterInit _ _ h _ := h
  exitInit h _ := h
  enterConfig h _ := h
  exitConfig h _ := h
  reset h := Outcome.all_ret.2 h
  restore h _ := h
  enterEvent h _ := h
  enterCT h _ := h
  enterStep h _ := h
  setTime _ h _ := h

/-- The calls of the callback and the times of a call that does not end the session. -/
theorem step_calls (hm : RefFMU3 m) {fuel : Nat} {w w' : World F D} {op : Op F} {s o} {b u} (h : Hears b u w.inst)
    (hop : ¬ EndsSession op) (ht : op.fn ≠ .setTime) (hok : op.fn = .doStep → s = .OK)
    (e : step m fuel w op = .ret (w', s, o)) :
    ∃ n ≤ fuel, Advanced m.h w.inst.times w'.inst.times n ∧
      Hears b (u ++ if b then stepTimes w.inst.startTime m.h w.inst.nSteps n else []) w'.inst := by
  have hk := hm.eff.okOrError
  by_cases hd : op.fn = .doStep
  · have := hok hd
    subst this
    cases op <;> simp only [Op.fn, reduceCtorEq] at hd
    obtain ⟨-, n, c', ehn, r, hn, hl, rfl, -⟩ := doStep_loop hk e
    have hc := hl.hears hm.eff h rfl
    obtain ⟨k, hk', hs, a⟩ := hl.advanced hk
    have := hs (by simp)
    subst this
    exact ⟨k, hn, a.of_eq rfl rfl rfl, hc⟩
  · obtain ⟨n, hn, a⟩ := step_advanced hk hop ht _ e
    have h' := step_hears hm h hd e
    have h0 := step_times hk hd _ e
    refine ⟨0, Nat.zero_le _, ?_, ?_⟩
    · have : timesAfter w op s = w.inst.times := by
        unfold timesAfter
        split
        · cases op <;> first | rfl | (exfalso; apply hop; simp [EndsSession, Op.fn]; done) | skip
          case setTime t => exact absurd rfl ht
        · rfl
      simp only at h0
      rw [h0, this]
      exact .refl _ _
    · simpa [stepTimes] using h'

theorem run_calls (hm : RefFMU3 m) {fuel : Nat} {b : Bool} : ∀ (ops : List (Op F)) {w w' : World F D} {outs} {u : List F},
    Hears b u w.inst → (∀ op ∈ ops, ¬ EndsSession op ∧ op.fn ≠ .setTime) → run m fuel w ops = .ret (w', outs) →
    (∀ x ∈ ops.zip outs, x.1.fn = .doStep → x.2.1 = .OK) →
    ∃ n ≤ fuel * ops.length, Advanced m.h w.inst.times w'.inst.times n ∧
      Hears b (u ++ if b then stepTimes w.inst.startTime m.h w.inst.nSteps n else []) w'.inst := by
  intro ops
  induction ops with
  | nil =>
    intro w w' outs u h _ e _
    cases e
    exact ⟨0, Nat.zero_le _, .refl _ _, by simpa [stepTimes] using h⟩
  | cons op ops ih =>
    intro w w' outs u h hX e hok
    unfold run at e
    obtain ⟨⟨w1, s, o⟩, e1, e⟩ := Outcome.bind_eq_ret.1 e
    obtain ⟨⟨w2, l⟩, e2, e⟩ := Outcome.bind_eq_ret.1 e
    cases e
    obtain ⟨n, hn, a, h1⟩ := step_calls hm h (hX op (by simp)).1 (hX op (by simp)).2 (fun hd => hok (op, s, o) (by simp) hd) e1
    obtain ⟨k, hk, a2, h2⟩ := ih h1 (fun op h => hX op (by simp [h])) e2 (fun x hx => hok x (by simp [hx]))
    refine ⟨n + k, ?_, a.trans a2, ?_⟩
    · simp only [List.length_cons, Nat.mul_succ]; omega
    · have hs : w1.inst.startTime = w.inst.startTime := a.startTime
      have hn' : w1.inst.nSteps = if n = 0 then w.inst.nSteps else (w.inst.nSteps + n) % 2 ^ 64 := a.nSteps
      rw [hs, hn', List.append_assoc] at h2
      rw [stepTimes_add]
      cases b <;> simpa using h2

end FMI3
end Verif
