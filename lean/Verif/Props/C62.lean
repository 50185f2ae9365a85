import Verif.Props.C38
import Verif.Lemmas.Logging
import Verif.Spec.Callbacks

/-!
# C62: the callbacks of Scheduled Execution
-/

set_option linter.unusedSectionVars false

namespace Verif.FMI3
variable {F D : Type} [Arith F] [HasInf F]

section
open Clocks
variable {ctx : Ctx F} {mv mv' : MV F (Data F)}

theorem ite_trace {P : Prop} [Decidable P] (e : (if P then callClockUpdate ctx mv else .ret mv) = .ret mv') :
    mv'.trace = mv.trace ++ if P then [.clockUpdate] else [] := by
  split at e
  · next h =>
    unfold callClockUpdate at e
    split at e <;> cases e
    simp [emit, h]
  · next h => cases e; simp [h]

theorem callLock_trace : (callLock ctx mv).trace = mv.trace ++ if ctx.lockPreemption then [.lock] else [] := by
  unfold callLock; split <;> simp_all [emit]
theorem callUnlock_trace : (callUnlock ctx mv).trace = mv.trace ++ if ctx.unlockPreemption then [.unlock] else [] := by
  unfold callUnlock; split <;> simp_all [emit]

theorem partition_trace {clock : Nat} {t : F} {u : Unit}
    (e : Clocks.activateModelPartition ctx mv clock t = .ret (mv', .OK, u)) :
    mv'.trace = mv.trace ++ Clocks.callbacks ctx.lockPreemption ctx.unlockPreemption clock
      (decide (mv'.data.outClock ≠ 0) || (clock == 1001 && mv'.data.inClock3_qualifier == 2)) := by
  unfold Clocks.activateModelPartition at e
  split at e
  · obtain ⟨mv1, e1, e⟩ := Outcome.bind_eq_ret.1 e
    cases e
    unfold partition1 at e1
    obtain ⟨t1, -, e1⟩ := Outcome.bind_eq_ret.1 e1
    obtain ⟨t2, -, e1⟩ := Outcome.bind_eq_ret.1 e1
    simp only at e1
    split at e1
    · cases e1
    · rw [ite_trace e1, ite_data e1]
      simp [callbacks, or_comm]
  · obtain ⟨mv1, e1, e⟩ := Outcome.bind_eq_ret.1 e
    cases e
    unfold partition2 at e1
    obtain ⟨t1, -, e1⟩ := Outcome.bind_eq_ret.1 e1
    obtain ⟨t2, -, e1⟩ := Outcome.bind_eq_ret.1 e1
    obtain ⟨t3, -, e1⟩ := Outcome.bind_eq_ret.1 e1
    simp only at e1
    rw [ite_trace e1, ite_data e1, callUnlock_trace, callUnlock_data]
    simp only
    rw [callLock_trace]
    simp [callbacks]
  · obtain ⟨mv1, e1, e⟩ := Outcome.bind_eq_ret.1 e
    cases e
    unfold partition3 at e1
    obtain ⟨t1, -, e1⟩ := Outcome.bind_eq_ret.1 e1
    obtain ⟨t2, -, e1⟩ := Outcome.bind_eq_ret.1 e1
    simp only at e1
    rw [ite_trace e1, ite_data e1, callUnlock_trace, callUnlock_data]
    simp only
    rw [callLock_trace]
    simp [callbacks]
  · unfold failM at e; cases e

end

/-- Which callbacks the importer has provided never changes. -/
theorem provided_inv {m : Model F D} (a b : Bool) : HistInv m fun c => c.ctx.lockPreemption = a ∧ c.ctx.unlockPreemption = b where
  lift h _ _ := h
  log _ h := h
  dirty _ h := h
  adv h _ := h
  iu h _ := h
  ncp _ h := h
  nx h := h
  nz h := h
  x _ h := h
  dx _ h := h
  z _ h := h
  prez _ h := h
  flags _ _ h := h
  term h := h
  enterInit _ _ h _ := h
  exitInit h _ := h
  enterConfig h _ := h
  exitConfig h _ := h
  reset h := by intro x e; cases e; exact h
  restore h _ := h
  enterEvent h _ := h
  enterCT h _ := h
  enterStep h _ := h
  setTime _ h _ := h

theorem Scheduled.reachable {m : Model F D} {lock unlock : Bool} {w : World F D} (h : Scheduled m lock unlock w) :
    Reachable m .scheduledExecution w := by
  obtain ⟨_, _, _, _, _, _, _, c, l, w₀, fuel, ops, outs, h1, h2, h3⟩ := h
  exact ⟨c, w₀, fuel, ops, outs, .se h1, h2, h3⟩

theorem se_provided {m : Model F D} {name token resource loggingOn logger clockUpdate lock unlock mem c l}
    (h : instantiateScheduledExecution m name token resource loggingOn logger clockUpdate lock unlock mem = (some c, l)) :
    c.ctx.lockPreemption = lock ∧ c.ctx.unlockPreemption = unlock := by
  unfold instantiateScheduledExecution at h
  split at h
  · cases h
  · simp only [Prod.mk.injEq, Option.map_eq_some_iff] at h
    obtain ⟨⟨c₀, -, rfl⟩, -⟩ := h
    exact ⟨rfl, rfl⟩

theorem Scheduled.provided {m : Model F D} (hm : OkOrError m) {lock unlock : Bool} {w : World F D} (h : Scheduled m lock unlock w) :
    w.inst.ctx.lockPreemption = lock ∧ w.inst.ctx.unlockPreemption = unlock := by
  obtain ⟨_, _, _, _, _, _, _, c, l, w₀, fuel, ops, outs, h1, h2, h3⟩ := h
  exact (run_inv hm (provided_inv lock unlock) ops (WInv.initial h2 (se_provided h1)) _ h3).inst

/-- **C62**: the activation of a model partition of Clocks invokes `clockUpdate` exactly if there is something to fetch, which is
a tick of `outClock` or, after the activation of `inClock1`, a changed interval of `inClock3`. The partitions of `inClock2` and
`inClock3` invoke `lockPreemption` and `unlockPreemption` once each in this order, before `clockUpdate`, if they are
provided. There are no other callbacks. -/
theorem C62_activation {lock unlock : Bool} {w w' w₁ w₂ : World F (Clocks.Data F)} (hw : Scheduled Clocks.model lock unlock w)
    {fuel : Nat} {clock : Nat} {t : F} {o}
    (e : step Clocks.model fuel w (.activateModelPartition clock t) = .ret (w', .OK, o))
    {f₁ f₂ : Nat} {x ticked : Bool} {i : F} {q₀ qualifier : Int} {is : Ptr F}
    (h₁ : step Clocks.model f₁ w' (.getClock (some [1005]) 1 (some [x])) = .ret (w₁, .OK, .bools (some [ticked])))
    (h₂ : step Clocks.model f₂ w' (.getIntervalDecimal (some [1003]) 1 (some [i]) (some [q₀])) =
      .ret (w₂, .OK, .intervals is (some [qualifier]))) :
    w'.inst.mv.trace = w.inst.mv.trace ++
      Clocks.callbacks lock unlock clock (ticked || (clock == 1001 && qualifier == 2)) := by
  have hm := (RefFMU3.clocks (F := F)).eff.okOrError
  have hs := readable ((hw.reachable).call hm e)
  rw [getClock_eq hs] at h₁
  rw [getInterval_eq hs] at h₂
  obtain ⟨a, b⟩ := hw.provided hm
  simp only [Outcome.ret.injEq, Prod.mk.injEq, Out.bools.injEq, Out.intervals.injEq, Option.some.injEq, List.cons.injEq, and_true, true_and] at h₁ h₂
  rw [← h₁.2, ← h₂.2.2, ← a, ← b]
  simp only [step] at e
  obtain ⟨c, y, e', rfl⟩ := run_ret e
  have e := begin_ret e'
  unfold callLast call at e
  obtain ⟨⟨c1, s1, b1⟩, e1, e⟩ := Outcome.bind_eq_ret.1 e
  simp only [Comp.lift] at e1
  obtain ⟨⟨mv, s2, b2⟩, e2, e3⟩ := Outcome.bind_eq_ret.1 e1
  cases e3
  rcases hm _ _ _ _ _ (.partition e2) with rfl | rfl
  · simp only [Status.rank] at e
    cases e
    exact partition_trace e2
  · simp [Status.rank] at e

/-- Non-vacuity: the fifth activation; afterwards `outClock` has ticked and the interval of `inClock3` has changed. -/
example : (Ex.runSE3 (Clocks.model : Model XRat _) (Ex.init3 ++
    [.activateModelPartition 1001 (.fin 0), .activateModelPartition 1002 (.fin 0), .activateModelPartition 1003 (.fin 0),
      .activateModelPartition 1001 (.fin 4), .activateModelPartition 1002 (.fin 1), .getClock (some [1005]) 1 (some [false]),
      .getIntervalDecimal (some [1003]) 1 (some [.fin 7]) (some [0])])).is (fun x =>
      x.2.drop 6 == [(.OK, .unit), (.OK, .bools (some [true])), (.OK, .intervals (some [.fin 0]) (some [2]))]) = true := by
  decide +kernel

/-- The events since the trace was `t` are not invocations of callbacks for scheduling. -/
def Unscheduled (t : List (Ev F)) (c : Comp F D) : Prop := c.mv.trace.filter Ev.scheduling = t

theorem Unscheduled.quiet {m : Model F D} (he : m.Eff) (hs : ∀ ctx mv, (m.setStartValues ctx mv).trace = mv.trace) (t : List (Ev F)) :
    CallInvX (fun fn => fn = .activateModelPartition) (fun f => f ≠ .partition) m (fun _ => True) (Unscheduled t) := by
  have lift : ∀ {c : Comp F D} {f mv' s}, Unscheduled t c → f ≠ .partition → MStep m f c.ctx c.mv mv' s → Unscheduled t { c with mv := mv' } := by
    intro c f mv' s h hf e
    obtain ⟨l, h1, h2⟩ := (he _ _ _ _ _ e).trace
    have h3 : l.filter Ev.scheduling = [] := by
      rw [List.filter_eq_nil_iff]
      intro e hl
      have := h2 e hl
      cases e <;> simp_all [Ev.scheduling, EvOK]
    simp only [Unscheduled, h1, List.filter_append, h3, List.append_nil]
    exact h
  have log : ∀ {c : Comp F D} msg, Unscheduled t c → Unscheduled t (c.logError msg) := by
    intro c msg h
    unfold Comp.logError logError
    split
    · simp only [Unscheduled, List.filter_append]
      simpa [Unscheduled, Ev.scheduling] using h
    · exact h
  exact
    { lift := lift
      log := log
      dirty := fun _ h => h
      calls := fun fn hfn f hf e => by subst e; cases fn <;> simp_all [Fn.calls]
      step := fun _ =>
        { lift := fun h hf e => lift h (by rintro rfl; simp [MFn.solver] at hf) e
          log := log
          dirty := fun _ h => h
          adv := fun h _ => h
          iu := fun h _ => by
            simp only [Unscheduled, List.filter_append] at h ⊢
            simpa [Ev.scheduling] using h
          ncp := fun _ h => h
          x := fun _ h => h
          dx := fun _ h => h
          z := fun _ h => h
          prez := fun _ h => h }
      nx := fun _ _ h => h
      nz := fun _ _ h => h
      prez := fun _ _ _ h => h
      term := fun h => h
      enterInit := fun _ _ _ _ h _ => h
      enterConfig := fun _ _ h _ => h
      exitConfig := fun _ _ h _ => h
      reset := fun _ _ h => by
        simp only [Verif.reset, Outcome.all_ret]
        simpa [Unscheduled, Comp.setDirty, Comp.setState, Comp.setTime, hs] using h
      restore := fun _ _ _ h _ => h
      enterEvent := fun _ _ h _ => h
      enterCT := fun _ _ h _ => h
      setTime := fun _ _ _ h _ => h
      exitInit := fun _ _ h _ => h
      enterStep := fun _ _ h _ => h }

/-- **C62**: no other call to any FMU invokes a callback for scheduling. -/
theorem C62_quiet {m : Model F D} (hm : RefFMU3 m) {w w' : World F D} {fuel : Nat} {op : Op F} {s o}
    (hop : op.fn ≠ .activateModelPartition) (e : step m fuel w op = .ret (w', s, o)) :
    w'.inst.mv.trace.filter Ev.scheduling = w.inst.mv.trace.filter Ev.scheduling :=
  step_keepX hm.eff.okOrError (Unscheduled.quiet hm.eff hm.start_trace _) (fun _ _ _ _ => trivial) rfl (fun _ _ _ _ h => h) hop _ e

theorem step_locks {f : MFn} {ctx : Ctx F} {mv mv' : MV F (Clocks.Data F)} {s : Status} (hl : ctx.lockPreemption = true)
    (hu : ctx.unlockPreemption = true) (e : MStep (Clocks.model (F := F)) f ctx mv mv' s) :
    ∃ n, mv'.trace.filter Ev.locking = mv.trace.filter Ev.locking ++ locks n := by
  obtain ⟨l, h1, h2⟩ := (RefFMU3.clocks (F := F)).eff _ _ _ _ _ e |>.trace
  by_cases hf : f = .partition
  · subst hf
    cases e
    next vr t u e =>
    rcases (RefFMU3.clocks (F := F)).eff.okOrError _ _ _ _ _ (.partition e) with rfl | rfl
    · rw [partition_trace e, hl, hu]
      by_cases h : vr = 1001
      · refine ⟨0, ?_⟩
        simp only [Clocks.callbacks, h, if_true, List.nil_append, List.filter_append, List.append_cancel_left_eq]
        split <;> rfl
      · refine ⟨1, ?_⟩
        simp only [Clocks.callbacks, h, if_true, if_false, List.filter_append, List.append_cancel_left_eq]
        split <;> rfl
    · refine ⟨0, ?_⟩
      simp only [Clocks.model, Clocks.activateModelPartition] at e
      split at e
      · obtain ⟨mv1, e1, e⟩ := Outcome.bind_eq_ret.1 e; cases e
      · obtain ⟨mv1, e1, e⟩ := Outcome.bind_eq_ret.1 e; cases e
      · obtain ⟨mv1, e1, e⟩ := Outcome.bind_eq_ret.1 e; cases e
      · unfold failM logError at e
        split at e <;> cases e <;> simp [locks, Ev.locking]
  · refine ⟨0, ?_⟩
    have h3 : l.filter Ev.locking = [] := by
      rw [List.filter_eq_nil_iff]
      intro e hl
      have := h2 e hl
      cases e <;> simp_all [Ev.locking, EvOK]
    simp [h1, h3, locks]

theorem locks_add (a b : Nat) : (locks a ++ locks b : List (Ev F)) = locks (a + b) := by
  simp [locks, ← List.flatten_append]

theorem locks_inv : HistInv (Clocks.model (F := F)) fun c =>
    (c.ctx.lockPreemption = true ∧ c.ctx.unlockPreemption = true) ∧ ∃ n, c.mv.trace.filter Ev.locking = locks n where
  lift := by
    rintro c f mv' s ⟨h, n, hn⟩ _ e
    obtain ⟨k, hk⟩ := step_locks h.1 h.2 e
    exact ⟨h, n + k, by rw [hk, hn, locks_add]⟩
  log := by
    rintro c msg ⟨h, n, hn⟩
    refine ⟨h, n, ?_⟩
    unfold Comp.logError logError
    split
    · simp only [List.filter_append, hn]; simp [Ev.locking]
    · exact hn
  dirty _ h := h
  adv h _ := h
  iu := by
    rintro c ⟨h, n, hn⟩ _
    refine ⟨h, n, ?_⟩
    simp only [List.filter_append, hn]; simp [Ev.locking]
  ncp _ h := h
  nx h := h
  nz h := h
  x _ h := h
  dx _ h := h
  z _ h := h
  prez _ h := h
  flags _ _ h := h
  term h := h
  enterInit _ _ h _ := h
  exitInit h _ := h
  enterConfig h _ := h
  exitConfig h _ := h
  reset := by rintro c h x e; cases e; exact h
  restore h _ := h
  enterEvent h _ := h
  enterCT h _ := h
  enterStep h _ := h
  setTime _ h _ := h

/-- **C62**: at the end of every call of every history, whether the calls succeed or not, preemption is not locked, and it was never
locked twice without having been unlocked: the invocations of `lockPreemption` and `unlockPreemption` alternate. -/
theorem C62_balanced {w : World F (Clocks.Data F)} (hw : Scheduled Clocks.model true true w) :
    ∃ n, w.inst.mv.trace.filter Ev.locking = locks n := by
  obtain ⟨_, _, _, _, _, _, _, c, l, w₀, fuel, ops, outs, h1, h2, h3⟩ := hw
  refine (run_inv (RefFMU3.clocks (F := F)).eff.okOrError locks_inv ops (WInv.initial h2 ⟨se_provided h1, 0, ?_⟩) _ h3).inst.2
  obtain ⟨_, _, _, _, _, _, _, c₀, _, _, _, _, _, _, e, rfl⟩ := (New.se h1).created
  show c₀.mv.trace.filter Ev.locking = []
  rw [createModelInstance_mv e]
  rfl

theorem scheduled_run {m : Model XRat D} {ops w outs} (h : Ex.runSE3 m ops = .ret (w, outs)) : Scheduled m true true w := by
  unfold Ex.runSE3 at h
  split at h
  · next c hc =>
    exact ⟨_, _, _, _, _, _, _, c, _, .fresh c, 1000, ops, outs, Prod.ext hc rfl, ⟨rfl, fun _ => rfl, fun _ _ e => by cases e⟩, h⟩
  · cases h

/-- Non-vacuity: seven activations, one of them refused, with a tick and a new interval. -/
example : ∃ w outs, Ex.runSE3 (Clocks.model : Model XRat _) (Ex.init3 ++
    [.activateModelPartition 1001 (.fin 0), .activateModelPartition 1002 (.fin 0), .activateModelPartition 1003 (.fin 0),
      .activateModelPartition 1001 (.fin 1), .activateModelPartition 1002 (.fin 1), .activateModelPartition 1001 (.fin 4),
      .activateModelPartition 1004 (.fin 1)]) = .ret (w, outs) ∧
    Scheduled Clocks.model true true w ∧
    w.inst.mv.trace.filter Ev.scheduling = [.lock, .unlock, .lock, .unlock, .lock, .unlock, .clockUpdate, .clockUpdate] := by
  have := Outcome.exists_of_is (r := Ex.runSE3 (Clocks.model : Model XRat _) (Ex.init3 ++
    [.activateModelPartition 1001 (.fin 0), .activateModelPartition 1002 (.fin 0), .activateModelPartition 1003 (.fin 0),
      .activateModelPartition 1001 (.fin 1), .activateModelPartition 1002 (.fin 1), .activateModelPartition 1001 (.fin 4),
      .activateModelPartition 1004 (.fin 1)])) (p := fun x => decide (x.1.inst.mv.trace.filter Ev.scheduling =
        [.lock, .unlock, .lock, .unlock, .lock, .unlock, .clockUpdate, .clockUpdate])) (by decide +kernel)
  obtain ⟨⟨w, outs⟩, e, h⟩ := this
  exact ⟨w, outs, e, scheduled_run e, of_decide_eq_true h⟩

end Verif.FMI3
