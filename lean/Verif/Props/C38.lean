import Verif.Lemmas.ClocksRun
import Verif.Lemmas.Readable
import Verif.Lemmas.ExReach

/-!
# C38: the tick counters of Clocks are consistent and its clocks are delivered once

`C38_counts` gives all variables of Clocks after any successful history: `Counts` counts the activations
in the calls. `C38_sum` holds even after calls that failed. The remaining theorems say when `outClock` and
the interval of `inClock3` are reported: never more than once, and not at all if another model partition
is activated before the tick is read, which `C38_violated` shows.
-/

set_option linter.unusedSectionVars false

namespace Verif.FMI3
open Clocks
variable {F : Type} [Arith F] [HasInf F]

/-- **C38**: in every instance of Clocks the total number of ticks is the sum of the three counters,
whatever calls were made before. -/
theorem C38_sum {it : IType} {w : World F (Data F)} (hw : Reachable model it w) {a b c total : Int}
    (h1 : Reads model w .int32 2001 a) (h2 : Reads model w .int32 2002 b) (h3 : Reads model w .int32 2003 c)
    (h4 : Reads model w .int32 2004 total) : total = a + b + c := by
  obtain ⟨k, h⟩ := described hw
  have e1 := h1.unique (reads_lens Lens.clocks (by simp) h1.allowed)
  have e2 := h2.unique (reads_lens Lens.clocks (by simp) h2.allowed)
  have e3 := h3.unique (reads_lens Lens.clocks (by simp) h3.allowed)
  have e4 := h4.unique (reads_lens Lens.clocks (by simp) h4.allowed)
  rw [e1, e2, e3, e4]
  show w.inst.mv.data.totalInClockTicks = w.inst.mv.data.inClock1Ticks + w.inst.mv.data.inClock2Ticks + w.inst.mv.data.inClock3Ticks
  rw [h.total, h.one, h.two, h.three]
  simp [Counts.total]

/-- Non-vacuity: all three clocks have been activated. -/
theorem C38.sample : ∃ w outs, Ex.runSE3 (Clocks.model : Model XRat _) (Ex.init3 ++
    [.activateModelPartition 1001 (.fin 0), .activateModelPartition 1002 (.fin 0), .activateModelPartition 1003 (.fin 0),
      .activateModelPartition 1001 (.fin 1)]) = .ret (w, outs) ∧ Ex.allOK outs = true ∧
    w.inst.ctx.state = .clockActivationMode ∧ w.inst.mv.data.totalInClockTicks = 4 := by
  have := Outcome.exists_of_is (r := Ex.runSE3 (Clocks.model : Model XRat _) (Ex.init3 ++
    [.activateModelPartition 1001 (.fin 0), .activateModelPartition 1002 (.fin 0), .activateModelPartition 1003 (.fin 0),
      .activateModelPartition 1001 (.fin 1)])) (p := fun x => Ex.allOK x.2 && (decide (x.1.inst.ctx.state = .clockActivationMode) &&
      decide (x.1.inst.mv.data.totalInClockTicks = 4))) (by decide +kernel)
  obtain ⟨⟨w, outs⟩, e, h⟩ := this
  simp only [Bool.and_eq_true, decide_eq_true_eq] at h
  exact ⟨w, outs, e, h⟩

example : ∃ (w : World XRat (Clocks.Data XRat)) (a b c total : Int), Reachable model .scheduledExecution w ∧
    Reads model w .int32 2001 a ∧ Reads model w .int32 2002 b ∧ Reads model w .int32 2003 c ∧
    Reads model w .int32 2004 total ∧ total = 4 := by
  obtain ⟨w, outs, e, -, hs, ht⟩ := C38.sample
  have hs' : w.inst.ctx.state ∈ Spec.allowedIn (.get .int32) := by rw [hs]; decide
  exact ⟨w, _, _, _, _, Ex.reach_runSE3 e, reads_lens Lens.clocks (by simp) hs', reads_lens Lens.clocks (by simp) hs',
    reads_lens Lens.clocks (by simp) hs', reads_lens Lens.clocks (by simp) hs', ht⟩

/-- What an instance of Clocks shows. -/
structure C38.Shows (w : World F (Data F)) (k : Counts) : Prop where
  ticks1 : Reads model w .int32 2001 (k.one : Int)
  ticks2 : Reads model w .int32 2002 (k.two : Int)
  ticks3 : Reads model w .int32 2003 (k.three : Int)
  total : Reads model w .int32 2004 ((k.one + k.two + k.three : Nat) : Int)
  result2 : Reads model w .int32 2005 k.result
  input2 : Reads model w .int32 2006 k.input
  output3 : Reads model w .int32 2007 (if k.three = 0 then (0 : Int) else 1000)
  /-- `fmi3GetClock` -/
  outClock : ∀ fuel old, ∃ w', step model fuel w (.getClock (some [1005]) 1 (some [old])) = .ret (w', .OK, .bools (some [k.tick]))
  /-- `fmi3GetIntervalDecimal`, which writes the interval only if it has changed -/
  inClock3 : ∀ fuel oldI oldQ, ∃ w', step model fuel w (.getIntervalDecimal (some [1003]) 1 (some [oldI]) (some [oldQ])) =
    .ret (w', .OK, .intervals (some [if k.news = some true then Arith.lit 0 else oldI]) (some [k.qualifier]))

theorem getClock_eq {w : World F (Data F)} (hs : w.inst.ctx.state ∈ Spec.allowedIn (.get .int32)) (fuel : Nat) (old : Bool) :
    step model fuel w (.getClock (some [1005]) 1 (some [old])) =
      .ret ({ w with inst := { w.inst with mv := { w.inst.mv with data := { w.inst.mv.data with outClock := 0 } } } }, .OK,
        .bools (some [decide (w.inst.mv.data.outClock ≠ 0)])) := by
  have ha : allowed w.inst.ctx MASK_AnyState = true := (allowed_any _).2 (by
    revert hs; cases w.inst.ctx.state <;> simp [Spec.allowedIn])
  simp only [step, World.run, FMI3.getClock, begin, beginFunction, ha, if_true, getClockLoop]
  rfl

theorem getInterval_eq {w : World F (Data F)} (hs : w.inst.ctx.state ∈ Spec.allowedIn (.get .int32)) (fuel : Nat) (oi : F) (oq : Int) :
    step model fuel w (.getIntervalDecimal (some [1003]) 1 (some [oi]) (some [oq])) =
      .ret ({ w with inst := { w.inst with mv := { w.inst.mv with data := { w.inst.mv.data with
          inClock3_qualifier := if w.inst.mv.data.inClock3_qualifier = 2 then 1 else w.inst.mv.data.inClock3_qualifier } } } }, .OK,
        .intervals (some [if w.inst.mv.data.inClock3_qualifier = 2 then w.inst.mv.data.inClock3_interval else oi])
          (some [w.inst.mv.data.inClock3_qualifier])) := by
  have ha : allowed w.inst.ctx MASK_AnyState = true := (allowed_any _).2 (by
    revert hs; cases w.inst.ctx.state <;> simp [Spec.allowedIn])
  simp only [step, World.run, FMI3.getIntervalDecimal, begin, beginFunction, ha, if_true, getIntervalLoop]
  by_cases h : w.inst.mv.data.inClock3_qualifier = 2
  · simp [Ptr.read, Comp.lift, Clocks.model, Clocks.getInterval, h, call, Ptr.write, Status.rank]
  · simp [Ptr.read, Comp.lift, Clocks.model, Clocks.getInterval, h, call, Ptr.write, Status.rank]

theorem C38.Shows.of {w : World F (Data F)} {k : Counts} (h : Describes w.inst.mv.data k)
    (hs : w.inst.ctx.state ∈ Spec.allowedIn (.get .int32)) : C38.Shows w k := by
  have key : ∀ {r : Nat} {v : Int}, (VType.int32, r) ∈ [(VType.float64, 0), (.int32, 2001), (.int32, 2002), (.int32, 2003), (.int32, 2004),
      (.int32, 2005), (.int32, 2006), (.int32, 2007)] → Lens.clocks.val .int32 r w.inst.ctx.time w.inst.mv.data = v → Reads model w .int32 r v :=
    fun hr hv => hv ▸ reads_lens Lens.clocks hr hs
  refine ⟨key (by simp) h.one, key (by simp) h.two, key (by simp) h.three, key (by simp) h.total, key (by simp) h.result,
    key (by simp) h.input, key (by simp) h.output, fun fuel old => ?_, fun fuel oi oq => ?_⟩
  · rw [getClock_eq hs, h.tick]
    cases k.tick <;> exact ⟨_, rfl⟩
  · rw [getInterval_eq hs]
    refine ⟨_, congrArg Outcome.ret (Prod.ext rfl (Prod.ext rfl ?_))⟩
    simp only [h.news, h.interval, Counts.qualifier]
    rcases k.news with _ | _ | _ <;> rfl

/-- **C38**. After any successful history the counters of Clocks are the numbers of activations of its
clocks, their total is the sum, `outClock` has ticked if the number of activations became a multiple of
five and the tick was not read since, and a new interval is reported as changed until it is read. -/
theorem C38_counts_partial {it : IType} {c : Comp F (Data F)} (hc : New model it c) {w w' : World F (Data F)}
    (hw : w.Initial c) {fuel : Nat} {ops : List (Op F)} {outs} (e : run model fuel w ops = .ret (w', outs))
    (hok : ∀ p ∈ outs, p.1 = .OK) : C38.Shows w' (ops.foldl remember (Mem.new .start)).now :=
  C38.Shows.of (run_knows tracker ops (initial_knows tracker hc hw) e hok).now
    (FMI3.Reachable.readable RefFMU3.clocks.eff.okOrError ⟨c, w, fuel, ops, outs, hc, hw, e⟩)

/-- Non-vacuity: a history with five activations, two of them in between saved and restored, whose tick has
not been read. -/
example : (Ex.runSE3 (Clocks.model : Model XRat _) (Ex.init3 ++
    [.activateModelPartition 1001 (.fin 3), .getFMUState 0, .activateModelPartition 1001 (.fin 4), .getClock (some [1005]) 1 (some [false]),
      .setFMUState 0, .activateModelPartition 1001 (.fin 4), .set .int32 (some [2006]) 1 (some [7]) 1,
      .activateModelPartition 1002 (.fin 4), .activateModelPartition 1003 (.fin 4), .activateModelPartition 1003 (.fin 4)])).is
      (fun x => Ex.allOK x.2) = true ∧
    (([.activateModelPartition 1001 (.fin 3), .getFMUState 0, .activateModelPartition 1001 (.fin 4), .getClock (some [1005]) 1 (some [false]),
      .setFMUState 0, .activateModelPartition 1001 (.fin 4), .set .int32 (some [2006]) 1 (some [7]) 1,
      .activateModelPartition 1002 (.fin 4), .activateModelPartition 1003 (.fin 4), .activateModelPartition 1003 (.fin 4)] :
      List (Op XRat)).foldl remember (Mem.new .start)).now = ⟨2, 1, 2, true, some true, 0, 7⟩ := by
  decide +kernel

/-- The calls that can make `outClock` tick or restore a tick. -/
def C38.ticks (op : Op F) : Prop := op.fn = .activateModelPartition ∨ op.fn = .reset ∨ op.fn = .setFMUState

theorem outClock_kept {fuel : Nat} {w w' : World F (Data F)} {ops : List (Op F)} {outs}
    (hX : ∀ op ∈ ops, ¬ C38.ticks op ∧ op.fn ≠ .getClock) (e : run model fuel w ops = .ret (w', outs)) :
    w'.inst.mv.data.outClock = w.inst.mv.data.outClock :=
  run_data Clocks.eff.okOrError (P := fun d : Data F => d.outClock = w.inst.mv.data.outClock) (B := [MFn.getClock, .partition])
    (fun hf hp e => (step_outClock hf e).trans hp) (by simp [MFn.solver]) (fun op hop => by
      obtain ⟨h1, h2⟩ := hX op hop
      rintro (h | h | ⟨f, hf, h⟩)
      · exact h1 (.inr (.inl h))
      · exact h1 (.inr (.inr h))
      · simp only [List.mem_cons, List.not_mem_nil, or_false] at h
        rcases h with rfl | rfl
        · exact h2 (Fn.calls_getClock.1 hf)
        · exact h1 (.inl (Fn.calls_partition.1 hf))) rfl e

theorem outClock_off {fuel : Nat} {ops : List (Op F)} {w w' : World F (Data F)} {outs}
    (hX : ∀ op ∈ ops, ¬ C38.ticks op) (e : run model fuel w ops = .ret (w', outs)) (h : w.inst.mv.data.outClock = 0) :
    w'.inst.mv.data.outClock = 0 := by
  refine run_data Clocks.eff.okOrError (P := fun d : Data F => d.outClock = 0) (B := [.partition]) ?_ (by simp [MFn.solver])
    (fun op hop => ?_) h e
  · intro f ctx mv mv' s hf h e
    by_cases hg : f = .getClock
    · subst hg
      cases e
      next e =>
      simp only [Clocks.model, Clocks.getClock] at e
      split at e
      · cases e; rfl
      · unfold failM Verif.logError at e; split at e <;> cases e <;> exact h
    · rw [step_outClock (by simp at hf; simp [hg, hf]) e]; exact h
  · rintro (h | h | ⟨f, hf, h⟩)
    · exact hX op hop (.inr (.inl h))
    · exact hX op hop (.inr (.inr h))
    · simp only [List.mem_cons, List.not_mem_nil, or_false] at h
      subst h
      exact hX op hop (.inl (Fn.calls_partition.1 hf))

theorem readable {it : IType} {w : World F (Data F)} (hw : Reachable model it w) :
    w.inst.ctx.state ∈ Spec.allowedIn (.get .int32) := hw.readable Clocks.eff.okOrError

/-- **C38**: a tick of `outClock` is delivered at most once. After a successful `fmi3GetClock` every further
`fmi3GetClock` says that the clock has not ticked until a model partition is activated or the instance is
reset or restored. -/
theorem C38_at_most_once {it : IType} {w w₁ w₂ : World F (Data F)} (hw : Reachable model it w) {fuel : Nat} {old o}
    (e₁ : step model fuel w (.getClock (some [1005]) 1 old) = .ret (w₁, .OK, o)) {ops : List (Op F)} {outs}
    (e₂ : run model fuel w₁ ops = .ret (w₂, outs)) (hops : ∀ op ∈ ops, ¬ C38.ticks op) (fuel' : Nat) (b : Bool) :
    ∃ w₃, step model fuel' w₂ (.getClock (some [1005]) 1 (some [b])) = .ret (w₃, .OK, .bools (some [false])) := by
  have h1 : w₁.inst.mv.data.outClock = 0 := by
    simp only [step] at e₁
    obtain ⟨c, x, e, rfl⟩ := run_ret e₁
    rw [getClockLoop_ret 1 (begin_ret e)]
    rfl
  have h2 := outClock_off hops e₂ h1
  have hr := ((hw.call Clocks.eff.okOrError e₁).run Clocks.eff.okOrError e₂)
  rw [getClock_eq (readable hr), h2]
  exact ⟨_, rfl⟩

/-- **C38**: a tick of `outClock` is delivered unless the next activation comes first. After an activation
the first `fmi3GetClock` tells whether the total number of ticks has become a multiple of five. -/
theorem C38_delivered {it : IType} {w w₁ w₂ : World F (Data F)} (hw : Reachable model it w) {fuel : Nat} {clock t o}
    (e₁ : step model fuel w (.activateModelPartition clock t) = .ret (w₁, .OK, o)) {total : Int}
    (ht : Reads model w₁ .int32 2004 total) {ops : List (Op F)} {outs}
    (e₂ : run model fuel w₁ ops = .ret (w₂, outs)) (hops : ∀ op ∈ ops, ¬ C38.ticks op ∧ op.fn ≠ .getClock) (fuel' : Nat) (b : Bool) :
    ∃ w₃, step model fuel' w₂ (.getClock (some [1005]) 1 (some [b])) = .ret (w₃, .OK, .bools (some [decide (total % 5 = 0)])) := by
  obtain ⟨k, hk⟩ := described hw
  have h1 : Describes w₁.inst.mv.data (k.activate clock t) := tracker.step (by rfl) e₁ hk
  have hr := ((hw.call Clocks.eff.okOrError e₁).run Clocks.eff.okOrError e₂)
  rw [getClock_eq (readable hr), outClock_kept hops e₂, h1.tick]
  have ht' : total = ((k.activate clock t).total : Int) :=
    (ht.unique (reads_lens Lens.clocks (by simp) ht.allowed)).trans h1.total
  refine ⟨_, congrArg Outcome.ret (Prod.ext rfl (Prod.ext rfl ?_))⟩
  have : (k.activate clock t).tick = decide (total % 5 = 0) := by
    rw [ht']
    have e : (k.activate clock t).tick = decide ((k.activate clock t).total % 5 = 0) := by
      unfold Counts.activate
      split
      · rfl
      · split <;> rfl
    rw [e]
    exact decide_eq_decide.2 (by omega)
  rw [this]
  by_cases h5 : total % 5 = 0 <;> simp [h5]

/-- Non-vacuity of `C38_at_most_once` and `C38_delivered`: the fifth activation makes `outClock` tick, the first
`fmi3GetClock` delivers the tick and the second does not. -/
example : (Ex.runSE3 (Clocks.model : Model XRat _) (Ex.init3 ++
    [.activateModelPartition 1001 (.fin 0), .activateModelPartition 1002 (.fin 0), .activateModelPartition 1001 (.fin 1),
      .activateModelPartition 1002 (.fin 1), .activateModelPartition 1001 (.fin 2), .get .int32 (some [2004]) 1 (some [0]) 1,
      .getClock (some [1005]) 1 (some [false]), .get .int32 (some [2004]) 1 (some [0]) 1,
      .getClock (some [1005]) 1 (some [true])])).is (fun x => decide (x.2.drop 7 = [(.OK, .values .int32 (some [(5 : Int)])), (.OK, .bools (some [true])),
        (.OK, .values .int32 (some [(5 : Int)])), (.OK, .bools (some [false]))])) = true := by
  decide +kernel

/-- **C38** fails for ticks that are not read in time: the fifth activation makes `outClock` tick, but after the
sixth no `fmi3GetClock` delivers that tick any more. -/
theorem C38_violated : ∃ w outs, Ex.runSE3 (Clocks.model : Model XRat _) (Ex.init3 ++
    [.activateModelPartition 1001 (.fin 0), .activateModelPartition 1002 (.fin 0), .activateModelPartition 1001 (.fin 1),
      .activateModelPartition 1002 (.fin 1), .activateModelPartition 1001 (.fin 2), .get .int32 (some [2004]) 1 (some [0]) 1,
      .activateModelPartition 1001 (.fin 3), .getClock (some [1005]) 1 (some [true])]) = .ret (w, outs) ∧
    outs.drop 7 = [(.OK, .values .int32 (some [(5 : Int)])), (.OK, .unit), (.OK, .bools (some [false]))] := by
  have := Outcome.exists_of_is (r := Ex.runSE3 (Clocks.model : Model XRat _) (Ex.init3 ++
    [.activateModelPartition 1001 (.fin 0), .activateModelPartition 1002 (.fin 0), .activateModelPartition 1001 (.fin 1),
      .activateModelPartition 1002 (.fin 1), .activateModelPartition 1001 (.fin 2), .get .int32 (some [2004]) 1 (some [0]) 1,
      .activateModelPartition 1001 (.fin 3), .getClock (some [1005]) 1 (some [true])]))
    (p := fun x => decide (x.2.drop 7 = [(.OK, .values .int32 (some [(5 : Int)])), (.OK, .unit), (.OK, .bools (some [false]))]))
    (by decide +kernel)
  obtain ⟨⟨w, outs⟩, e, h⟩ := this
  exact ⟨w, outs, e, of_decide_eq_true h⟩

/-- **C38**: a new interval of `inClock3` is reported as changed until it has been read. After the activation of
`inClock1` in the second that begins at 4 the next `fmi3GetIntervalDecimal` reports the interval 0 as changed. -/
theorem C38_interval_delivered {it : IType} {w w₁ w₂ : World F (Data F)} (hw : Reachable model it w) {fuel : Nat} {t : F} {o}
    (h4 : Arith.toInt t = some 4) (e₁ : step model fuel w (.activateModelPartition 1001 t) = .ret (w₁, .OK, o))
    {ops : List (Op F)} {outs} (e₂ : run model fuel w₁ ops = .ret (w₂, outs))
    (hops : ∀ op ∈ ops, op.fn ∉ [Fn.reset, .setFMUState, .getIntervalDecimal]) (fuel' : Nat) (oi : F) (oq : Int) :
    ∃ w₃, step model fuel' w₂ (.getIntervalDecimal (some [1003]) 1 (some [oi]) (some [oq])) =
      .ret (w₃, .OK, .intervals (some [Arith.lit 0]) (some [2])) := by
  obtain ⟨k, hk⟩ := described hw
  have h1 : Describes w₁.inst.mv.data (k.activate 1001 t) := tracker.step (by rfl) e₁ hk
  have hr := ((hw.call Clocks.eff.okOrError e₁).run Clocks.eff.okOrError e₂)
  have hq : w₂.inst.mv.data.inClock3_qualifier = 2 := by
    refine run_data Clocks.eff.okOrError (P := fun d : Data F => d.inClock3_qualifier = 2) (B := [.getInterval]) ?_ (by simp [MFn.solver])
      (fun op hop => ?_) ?_ e₂
    · intro f ctx mv mv' s hf h e
      by_cases hg : f = .partition
      · subst hg
        cases e
        next e =>
        rcases activate_data e with ⟨-, hc, hd⟩ | ⟨-, hd⟩
        · rw [hd]
          unfold Clocks.activated Clocks.setOutClock
          split
          · simp [h]
          · split <;> exact h
        · rw [hd]; exact h
      · have := step_qualifier (by simp at hf; simp [hg, hf]) e
        rw [(Prod.mk.inj this).1]; exact h
    · have := hops op hop
      simp only [List.mem_cons, List.not_mem_nil, or_false, not_or] at this
      rintro (h | h | ⟨f, hf, h⟩)
      · exact this.1 h
      · exact this.2.1 h
      · simp only [List.mem_cons, List.not_mem_nil, or_false] at h
        subst h
        exact this.2.2 (Fn.calls_getInterval.1 hf)
    · rw [h1.news]; simp [Counts.activate, Counts.ticked, Counts.qualifier, h4]
  obtain ⟨k2, hk2⟩ := described hr
  rw [getInterval_eq (readable hr), hq, hk2.interval]
  exact ⟨_, rfl⟩

/-- The calls that announce a new interval or restore the announcement. -/
def C38.announces (op : Op F) : Prop :=
  op.fn = .reset ∨ op.fn = .setFMUState ∨ ∃ t, op = .activateModelPartition 1001 t ∧ Arith.toInt t = some 4

theorem activate_old {fuel : Nat} {w w' : World F (Data F)} {clock : Nat} {t : F} {s o}
    (h : ¬ (clock = 1001 ∧ Arith.toInt t = some 4)) (hq : w.inst.mv.data.inClock3_qualifier ≠ 2)
    (e : step model fuel w (.activateModelPartition clock t) = .ret (w', s, o)) : w'.inst.mv.data.inClock3_qualifier ≠ 2 := by
  simp only [step] at e
  obtain ⟨c, x, ea, rfl⟩ := run_ret e
  clear e
  simp only [FMI3.activateModelPartition, begin, beginFunction] at ea
  split at ea
  · unfold callLast call at ea
    obtain ⟨⟨c1, s1, u⟩, e1, e3⟩ := Outcome.bind_eq_ret.1 ea
    obtain ⟨mv, e2, rfl⟩ := lift_eq_ret.1 e1
    have hd : mv.data.inClock3_qualifier ≠ 2 := by
      rcases activate_data e2 with ⟨-, hc, hd⟩ | ⟨-, hd⟩
      · rw [hd]
        unfold Clocks.activated Clocks.setOutClock
        split
        · next h1 =>
          simp only
          rw [if_neg fun h4 => h ⟨h1, h4⟩]
          exact hq
        · split <;> exact hq
      · rw [hd]; exact hq
    simp only at e3
    split at e3 <;> cases e3 <;> exact hd
  · cases ea
    simp only [Comp.logError, Verif.logError, Comp.setState]
    split <;> exact hq

theorem qualifier_old {fuel : Nat} (ops : List (Op F)) : ∀ {w w' : World F (Data F)} {outs},
    (∀ op ∈ ops, ¬ C38.announces op) → run model fuel w ops = .ret (w', outs) →
    w.inst.mv.data.inClock3_qualifier ≠ 2 → w'.inst.mv.data.inClock3_qualifier ≠ 2 := by
  induction ops with
  | nil => intro w w' outs _ e h; cases e; exact h
  | cons op ops ih =>
    intro w w' outs hX e h
    rw [run] at e
    obtain ⟨⟨w1, s, o⟩, e1, e⟩ := Outcome.bind_eq_ret.1 e
    obtain ⟨⟨w2, l⟩, e2, e⟩ := Outcome.bind_eq_ret.1 e
    cases e
    refine ih (fun op hop => hX op (by simp [hop])) e2 ?_
    have hx := hX op (by simp)
    simp only [C38.announces, not_or, not_exists, not_and] at hx
    by_cases ha : op.fn = .activateModelPartition
    · cases op <;> simp only [Op.fn, reduceCtorEq] at ha
      next clock t =>
      refine activate_old ?_ h e1
      rintro ⟨rfl, h4⟩
      exact hx.2.2 t rfl h4
    · refine run_data Clocks.eff.okOrError (P := fun d : Data F => d.inClock3_qualifier ≠ 2) (B := [.partition]) ?_ (by simp [MFn.solver])
        (ops := [op]) (outs := [(s, o)]) (fun op' hop => ?_) h (by rw [run, e1]; rfl)
      · intro f ctx mv mv' s hf h e
        by_cases hg : f = .getInterval
        · subst hg
          cases e
          next e =>
          simp only [Clocks.model, Clocks.getInterval] at e
          split at e
          · split at e <;> cases e
            · simp
            · exact h
          · unfold failM Verif.logError at e; split at e <;> cases e <;> exact h
        · have := step_qualifier (by simp at hf; simp [hg, hf]) e
          rw [(Prod.mk.inj this).1]; exact h
      · cases List.mem_singleton.1 hop
        rintro (h | h | ⟨f, hf, h⟩)
        · exact hx.1 h
        · exact hx.2.1 h
        · simp only [List.mem_cons, List.not_mem_nil, or_false] at h
          subst h
          exact ha (Fn.calls_partition.1 hf)

/-- **C38**: a new interval of `inClock3` is reported as changed only once. After a successful
`fmi3GetIntervalDecimal` it is not reported as changed again until `inClock1` is activated in the second that
begins at 4 or the instance is reset or restored. -/
theorem C38_interval_at_most_once {it : IType} {w w₁ w₂ : World F (Data F)} (hw : Reachable model it w) {fuel : Nat} {i q o}
    (e₁ : step model fuel w (.getIntervalDecimal (some [1003]) 1 i q) = .ret (w₁, .OK, o))
    {ops : List (Op F)} {outs} (e₂ : run model fuel w₁ ops = .ret (w₂, outs)) (hops : ∀ op ∈ ops, ¬ C38.announces op)
    (fuel' : Nat) (oi : F) (oq : Int) :
    ∃ w₃ q', step model fuel' w₂ (.getIntervalDecimal (some [1003]) 1 (some [oi]) (some [oq])) =
      .ret (w₃, .OK, .intervals (some [oi]) (some [q'])) ∧ q' ≠ 2 := by
  have hr := ((hw.call Clocks.eff.okOrError e₁).run Clocks.eff.okOrError e₂)
  have hq : w₂.inst.mv.data.inClock3_qualifier ≠ 2 := by
    refine qualifier_old ops hops e₂ ?_
    simp only [step] at e₁
    obtain ⟨c, x, e, rfl⟩ := run_ret e₁
    rw [getIntervalLoop_ret 1 (begin_ret e)]
    simp only [Nat.succ_ne_zero, if_false]
    split <;> simp_all
  rw [getInterval_eq (readable hr)]
  refine ⟨_, _, congrArg Outcome.ret (Prod.ext rfl (Prod.ext rfl ?_)), hq⟩
  simp [hq]

/-- Non-vacuity of the theorems about the interval. -/
example : (Ex.runSE3 (Clocks.model : Model XRat _) (Ex.init3 ++
    [.getIntervalDecimal (some [1003]) 1 (some [.fin 7]) (some [9]), .activateModelPartition 1001 (.fin (9 / 2)),
      .activateModelPartition 1001 (.fin 5), .getIntervalDecimal (some [1003]) 1 (some [.fin 7]) (some [9]),
      .activateModelPartition 1001 (.fin 6), .getIntervalDecimal (some [1003]) 1 (some [.fin 7]) (some [9])])).is
      (fun x => decide (x.2.drop 2 = [(.OK, .intervals (some [.fin 7]) (some [0])), (.OK, .unit), (.OK, .unit),
        (.OK, .intervals (some [.fin 0]) (some [2])), (.OK, .unit), (.OK, .intervals (some [.fin 7]) (some [1]))])) = true := by
  decide +kernel

end Verif.FMI3
