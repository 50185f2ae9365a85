import Verif.Lemmas.Preempt
import Verif.Props.C38

/-!
# C39: preemption of the model partitions of Clocks loses no tick

`Schedule ctx prio s as s'` (Verif/Preempt.lean): from `s` the actions `as` lead to `s'`, where activations may
interrupt each other between any two accesses to the variables if the priorities and the lock
callbacks allow it. `C39_alone` relates this to the model of the FMU in which activations run to completion.
-/

set_option linter.unusedSectionVars false

namespace Verif.Clocks
variable {F : Type} [Arith F]

/-- The number of activations of a clock in a schedule. -/
def activations (p : Part) (as : List (Action F)) : Nat :=
  as.countP fun a => match a with
    | .start q _ => decide (q = p)
    | _ => false

/-- **C39**: if the importer provides lockPreemption and unlockPreemption and gives no clock a higher priority than
`inClock1`, then in every schedule, once all activations have finished, each of the counters has
increased by the number of activations of its clock, and the total by the number of all activations. -/
theorem C39_counts {ctx : Ctx F} (hl : ctx.lockPreemption = true) (hu : ctx.unlockPreemption = true) {prio : Part → Nat}
    (hp : ∀ p, prio .one ≤ prio p) {mv : MV F (Data F)} {as : List (Action F)} {s : Sched F}
    (e : Schedule ctx prio (.idle mv) as s) (hs : s.frames = []) :
    intVar s.mv.data 2001 = some (mv.data.inClock1Ticks + activations .one as) ∧
    intVar s.mv.data 2002 = some (mv.data.inClock2Ticks + activations .two as) ∧
    intVar s.mv.data 2003 = some (mv.data.inClock3Ticks + activations .three as) ∧
    intVar s.mv.data 2004 = some (mv.data.totalInClockTicks + (activations .one as + activations .two as + activations .three as)) := by
  have h := (Inv.idle prio mv).run hl hu hp e
  have key : ∀ v ∈ counters, s.mv.data.get v = mv.data.get v + (as.map (Action.counts v)).sum := by
    intro v hv
    have := h.count v hv
    simpa [hs, owes] using this
  have sums : ∀ as : List (Action F),
      (as.map (Action.counts .ticks1)).sum = activations .one as ∧ (as.map (Action.counts .ticks2)).sum = activations .two as ∧
      (as.map (Action.counts .ticks3)).sum = activations .three as ∧ (as.map (Action.counts .total)).sum =
        activations .one as + activations .two as + activations .three as := by
    intro as
    induction as with
    | nil => exact ⟨rfl, rfl, rfl, rfl⟩
    | cons a as ih =>
      obtain ⟨h1, h2, h3, h4⟩ := ih
      simp only [List.map_cons, List.sum_cons, h1, h2, h3, h4, activations, List.countP_cons]
      cases a with
      | start p t => cases p <;> simp [Action.counts, Part.ticks] <;> omega
      | _ => simp [Action.counts]
  obtain ⟨h1, h2, h3, h4⟩ := sums as
  simp only [intVar, Option.some.injEq]
  exact ⟨h1 ▸ key .ticks1 (by decide), h2 ▸ key .ticks2 (by decide), h3 ▸ key .ticks3 (by decide), h4 ▸ key .total (by decide)⟩

/-- **C39**: under the same conditions the total is the sum of the three counters after every schedule that begins in an
instance reached by any calls. -/
theorem C39_sum [HasInf F] {it : IType} {w : FMI3.World F (Data F)} (hw : FMI3.Reachable model it w)
    (hl : w.inst.ctx.lockPreemption = true) (hu : w.inst.ctx.unlockPreemption = true) {prio : Part → Nat}
    (hp : ∀ p, prio .one ≤ prio p) {as : List (Action F)} {s : Sched F}
    (e : Schedule w.inst.ctx prio (.idle w.inst.mv) as s) (hs : s.frames = []) {a b c total : Int}
    (h1 : intVar s.mv.data 2001 = some a) (h2 : intVar s.mv.data 2002 = some b) (h3 : intVar s.mv.data 2003 = some c)
    (h4 : intVar s.mv.data 2004 = some total) : total = a + b + c := by
  obtain ⟨k, h⟩ := described hw
  obtain ⟨e1, e2, e3, e4⟩ := C39_counts hl hu hp e hs
  cases h1.symm.trans e1; cases h2.symm.trans e2; cases h3.symm.trans e3; cases h4.symm.trans e4
  have : w.inst.mv.data.totalInClockTicks = w.inst.mv.data.inClock1Ticks + w.inst.mv.data.inClock2Ticks + w.inst.mv.data.inClock3Ticks := by
    rw [h.total, h.one, h.two, h.three]; simp [Counts.total]
  omega

/-- The running activation makes all its steps and returns. -/
def finish (ctx : Ctx F) : List Instr → Regs → MV F (Data F) → Outcome (MV F (Data F))
  | [], _, mv => .ret mv
  | i :: l, g, mv => i.exec ctx g mv >>- fun (g, mv) => finish ctx l g mv

theorem lock_data (ctx : Ctx F) (mv : MV F (Data F)) : (callLock ctx mv).data = mv.data := by
  unfold callLock emit; split <;> rfl

theorem unlock_data (ctx : Ctx F) (mv : MV F (Data F)) : (callUnlock ctx mv).data = mv.data := by
  unfold callUnlock emit; split <;> rfl

/-- The instructions are those of the model: an activation that is not interrupted has the effect of
`activateModelPartition`, including undefined behaviour. -/
theorem C39_code (ctx : Ctx F) (mv : MV F (Data F)) (p : Part) (t : F) (g : Regs) :
    (finish ctx (p.code t) g mv >>- fun mv => Outcome.ret (mv, Status.OK, ())) = activateModelPartition ctx mv p.clock t := by
  cases p
  · simp only [Part.code, Part.clock, activateModelPartition, partition1, code1]
    rcases h1 : toInt32 (mv.data.inClock1Ticks + 1) with x | _ | _ <;> rcases h2 : toInt32 (mv.data.totalInClockTicks + 1) with y | _ | _ <;>
    rcases h3 : Arith.toInt t with _ | it <;>
    simp [finish, Instr.exec, Data.get, Data.put, h1, h2, setOutClock]
    by_cases h4 : it = 4 <;> simp [h4, finish, Instr.exec, Data.get, Data.put, Outcome.bind_assoc]
  · simp only [Part.code, Part.clock, activateModelPartition, partition2, code2]
    rcases h1 : toInt32 (mv.data.inClock2Ticks + 1) with x | _ | _ <;> rcases h2 : toInt32 (mv.data.totalInClockTicks + 1) with y | _ | _ <;>
    rcases h3 : toInt32 (mv.data.result2 + mv.data.input2) with z | _ | _ <;>
    simp [finish, Instr.exec, Data.get, Data.put, h1, h2, h3, lock_data, unlock_data, setOutClock, Outcome.bind_assoc]
    by_cases h : mv.data.outClock = 0 <;> by_cases h' : y.tmod 5 = 0 <;> simp [h, h']
  · simp only [Part.code, Part.clock, activateModelPartition, partition3, code3]
    rcases h1 : toInt32 (mv.data.inClock3Ticks + 1) with x | _ | _ <;> rcases h2 : toInt32 (mv.data.totalInClockTicks + 1) with y | _ | _ <;>
    simp [finish, Instr.exec, Data.get, Data.put, h1, h2, lock_data, unlock_data, setOutClock, Outcome.bind_assoc]
    by_cases h : mv.data.outClock = 0 <;> by_cases h' : y.tmod 5 = 0 <;> simp [h, h']

theorem finish_schedule {ctx : Ctx F} {prio : Part → Nat} : ∀ (l : List Instr) {p : Part} {g : Regs} {mv mv' : MV F (Data F)} {lk : Bool},
    finish ctx l g mv = .ret mv' → ∃ lk', Schedule ctx prio ⟨mv, [⟨p, l, g⟩], lk⟩ (List.replicate (l.length + 1) .exec) ⟨mv', [], lk'⟩
  | [], p, g, mv, mv', lk, e => by
    cases e
    exact ⟨lk, .cons rfl rfl (.nil _)⟩
  | i :: l, p, g, mv, mv', lk, e => by
    obtain ⟨⟨g1, mv1⟩, e1, e2⟩ := Outcome.bind_eq_ret.1 e
    obtain ⟨lk', h⟩ := finish_schedule (prio := prio) l (p := p) (lk := i.locks ctx lk) e2
    refine ⟨lk', .cons rfl ?_ h⟩
    simp only [Sched.act, e1, Outcome.ret_bind]

/-- An activation that is not interrupted: a schedule that starts it and lets it run to its end leads to the state after
`activateModelPartition`. -/
theorem C39_alone {ctx : Ctx F} (hl : ctx.lockPreemption = true) (hu : ctx.unlockPreemption = true) {prio : Part → Nat}
    (hp : ∀ p, prio .one ≤ prio p) {mv mv' : MV F (Data F)} {p : Part} {t : F} {s}
    (e : activateModelPartition ctx mv p.clock t = .ret (mv', s, ())) :
    ∃ n, Schedule ctx prio (.idle mv) (.start p t :: List.replicate n .exec) (.idle mv') := by
  rw [← C39_code ctx mv p t (fun _ => 0)] at e
  obtain ⟨mv1, e1, e2⟩ := Outcome.bind_eq_ret.1 e
  cases e2
  obtain ⟨lk, h⟩ := finish_schedule (prio := prio) (p := p) (lk := false) _ e1
  have h' : Schedule ctx prio (.idle mv) (.start p t :: List.replicate ((p.code t).length + 1) .exec) ⟨mv', [], lk⟩ :=
    .cons rfl rfl h
  have hlk := ((Inv.idle prio mv).run hl hu hp h').locked
  simp only at hlk
  subst hlk
  exact ⟨_, h'⟩

theorem play_schedule {ctx : Ctx F} {prio : Part → Nat} : ∀ (as : List (Action F)) {s s' : Sched F},
    s.play ctx prio as = some s' → Schedule ctx prio s as s'
  | [], s, s', e => by cases e; exact .nil _
  | a :: as, s, s', e => by
    simp only [Sched.play] at e
    split at e
    next ha =>
      split at e
      next h => exact .cons ha h (play_schedule as e)
      next => cases e
    next => cases e

/-- The priorities of the three clocks in Clocks/FMI3.xml 11-13. -/
def priorities : Part → Nat
  | .one => 0
  | .two => 1
  | .three => 2

/-- A schedule in which `inClock2` interrupts `inClock3` while it increments its counter and is itself interrupted
by `inClock1` after its critical section. -/
def C39.nested : List (Action XRat) :=
  [.start .three (.fin 0), .exec, .start .two (.fin 0)] ++ List.replicate 14 .exec ++ [.start .one (.fin 0)] ++
    List.replicate 11 .exec ++ List.replicate 2 .exec ++ [.setInput 4] ++ List.replicate 12 .exec

/-- An instance with the callbacks given, before any activation. -/
def C39.ctx (lock : Bool) : Ctx XRat :=
  ⟨.fin 0, .scheduledExecution, .clockActivationMode, false, false, false, none, true, lock, lock⟩

def C39.mv : MV XRat (Data XRat) := ⟨false, false, false, false, false, .fin 0, false, false, model.data0, []⟩

/-- The counters, if all activations have finished. -/
def C39.outcome (s : Option (Sched XRat)) : Option (Int × Int × Int × Int) :=
  s.bind fun s => if s.frames.isEmpty then
    some (s.mv.data.inClock1Ticks, s.mv.data.inClock2Ticks, s.mv.data.inClock3Ticks, s.mv.data.totalInClockTicks) else none

theorem C39.outcome_some {s : Option (Sched XRat)} {x : Int × Int × Int × Int} (h : C39.outcome s = some x) :
    ∃ s', s = some s' ∧ s'.frames = [] ∧ (s'.mv.data.inClock1Ticks, s'.mv.data.inClock2Ticks, s'.mv.data.inClock3Ticks,
      s'.mv.data.totalInClockTicks) = x := by
  cases s with
  | none => cases h
  | some s =>
    simp only [C39.outcome, Option.bind_some] at h
    split at h
    next he => exact ⟨s, rfl, List.isEmpty_iff.1 he, Option.some.inj h⟩
    next => cases h

/-- Non-vacuity: the schedule `nested` is one of those `C39_counts` is about. -/
example : ∃ s, Schedule (C39.ctx true) priorities (.idle C39.mv) C39.nested s ∧ s.frames = [] ∧
    (∀ p, priorities .one ≤ priorities p) ∧ s.mv.data.totalInClockTicks = 3 := by
  obtain ⟨s, h1, h2, h3⟩ := C39.outcome_some (s := (Sched.idle C39.mv).play (C39.ctx true) priorities C39.nested) (x := (1, 1, 1, 3))
    (by decide +kernel)
  exact ⟨s, play_schedule _ h1, h2, fun p => by simp [priorities], by simp only [Prod.mk.injEq] at h3; exact h3.2.2.2⟩

/-- Non-vacuity of `C39_sum`. -/
example : ∃ (w : FMI3.World XRat (Data XRat)) (s : Sched XRat), FMI3.Reachable model .scheduledExecution w ∧
    w.inst.ctx.lockPreemption = true ∧ w.inst.ctx.unlockPreemption = true ∧
    Schedule w.inst.ctx priorities (.idle w.inst.mv) C39.nested s ∧ s.frames = [] ∧ s.mv.data.totalInClockTicks = 4 := by
  have := Outcome.exists_of_is (r := Ex.runSE3 (Clocks.model : Model XRat _) (Ex.init3 ++ [.activateModelPartition 1001 (.fin 0)]))
    (p := fun x => (x.1.inst.ctx.lockPreemption && x.1.inst.ctx.unlockPreemption) &&
      ((Sched.idle x.1.inst.mv).play x.1.inst.ctx priorities C39.nested).any fun s =>
        s.frames.isEmpty && decide (s.mv.data.totalInClockTicks = 4)) (by decide +kernel)
  obtain ⟨⟨w, outs⟩, e, h⟩ := this
  simp only [Bool.and_eq_true] at h
  obtain ⟨s, h1, h2⟩ := (Option.any_eq_true _ _).1 h.2
  simp only [Bool.and_eq_true, decide_eq_true_eq, List.isEmpty_iff] at h2
  exact ⟨w, s, Ex.reach_runSE3 e, h.1.1, h.1.2, play_schedule _ h1, h2⟩

/-- The locks are needed: without the callbacks `inClock1` interrupts `inClock2` between the read and the write of
the total, and a tick is lost. -/
theorem C39_needs_locks : ∃ as s, Schedule (C39.ctx false) priorities (.idle C39.mv) as s ∧ s.frames = [] ∧
    s.mv.data.inClock1Ticks = 1 ∧ s.mv.data.inClock2Ticks = 1 ∧ s.mv.data.totalInClockTicks = 1 := by
  obtain ⟨s, h1, h2, h3⟩ := C39.outcome_some (s := (Sched.idle C39.mv).play (C39.ctx false) priorities
    ([.start .two (.fin 0)] ++ List.replicate 4 .exec ++ [.start .one (.fin 0)] ++ List.replicate 11 .exec ++ List.replicate 12 .exec))
    (x := (1, 1, 0, 1)) (by decide +kernel)
  refine ⟨_, s, play_schedule _ h1, h2, ?_⟩
  simp only [Prod.mk.injEq] at h3
  exact ⟨h3.1, h3.2.1, h3.2.2.2⟩

/-- The priorities are needed: `inClock1` takes no lock, so a tick is lost if `inClock2` can interrupt it. -/
theorem C39_needs_priorities : ∃ prio as s, Schedule (C39.ctx true) prio (.idle C39.mv) as s ∧ s.frames = [] ∧
    s.mv.data.inClock1Ticks = 1 ∧ s.mv.data.inClock2Ticks = 1 ∧ s.mv.data.totalInClockTicks = 1 := by
  obtain ⟨s, h1, h2, h3⟩ := C39.outcome_some (s := (Sched.idle C39.mv).play (C39.ctx true) (fun p => if p = .one then 1 else 0)
    ([.start .one (.fin 0)] ++ List.replicate 3 .exec ++ [.start .two (.fin 0)] ++ List.replicate 16 .exec ++ List.replicate 8 .exec))
    (x := (1, 1, 0, 1)) (by decide +kernel)
  refine ⟨_, _, s, play_schedule _ h1, h2, ?_⟩
  simp only [Prod.mk.injEq] at h3
  exact ⟨h3.1, h3.2.1, h3.2.2.2⟩

/-- Four ticks have been counted. -/
def C39.four : MV XRat (Data XRat) := { C39.mv with data := { model.data0 with inClock1Ticks := 2, inClock2Ticks := 2, totalInClockTicks := 4 } }

/-- Preemption can hide a tick of `outClock` even with locks and priorities: `inClock2` makes it tick, but before it calls
clockUpdate it is interrupted by `inClock1`, which clears the tick. The importer is never told. -/
theorem C39_outClock_lost : ∃ as s, Schedule (C39.ctx true) priorities (.idle C39.four) as s ∧ s.frames = [] ∧
    s.mv.data.totalInClockTicks = 6 ∧ s.mv.data.outClock = 0 ∧ s.mv.trace = [.lock, .unlock] := by
  have : ∃ s, (Sched.idle C39.four).play (C39.ctx true) priorities
      ([.start .two (.fin 0)] ++ List.replicate 13 .exec ++ [.start .one (.fin 0)] ++ List.replicate 11 .exec ++ List.replicate 3 .exec) = some s ∧
      (s.frames.isEmpty && (decide (s.mv.data.totalInClockTicks = 6) && (decide (s.mv.data.outClock = 0) &&
        decide (s.mv.trace = [.lock, .unlock])))) = true := (Option.any_eq_true _ _).1 (by decide +kernel)
  obtain ⟨s, h1, h2⟩ := this
  simp only [Bool.and_eq_true, decide_eq_true_eq, List.isEmpty_iff] at h2
  exact ⟨_, s, play_schedule _ h1, h2⟩

/-- Without the interruption the importer is told. -/
example : ∃ mv, activateModelPartition (C39.ctx true) C39.four 1002 (.fin 0) = .ret (mv, .OK, ()) ∧
    mv.trace = [.lock, .unlock, .clockUpdate] := ⟨_, rfl, rfl⟩

end Verif.Clocks
