import Verif.Spec.Threaded
import Verif.Lemmas.Synchronous

/-! # The program with threads: lemmas for C77 -/

set_option linter.unusedSectionVars false

namespace Verif.Importer.Threads
open Verif Importer.CoSim Importer.Sync Clocks

/-- One activation more. -/
def bump (n : Part → Nat) (p : Part) : Part → Nat := fun q => n q + if q = p then 1 else 0

/-- The instance can be activated, has counted `n` ticks, and its numbers are small. -/
structure Fmu (w : CWorld) (n : Part → Nat) (k : Nat) (q : Int) : Prop where
  state : w.inst.ctx.state = .clockActivationMode
  cb : w.inst.ctx.clockUpdate = true
  one : w.inst.mv.data.inClock1Ticks = n .one
  two : w.inst.mv.data.inClock2Ticks = n .two
  three : w.inst.mv.data.inClock3Ticks = n .three
  total : w.inst.mv.data.totalInClockTicks = n .one + n .two + n .three
  few : n .one + n .two + n .three ≤ k
  result : 0 ≤ w.inst.mv.data.result2 ∧ w.inst.mv.data.result2 ≤ 1000 * k
  input : 0 ≤ w.inst.mv.data.input2 ∧ w.inst.mv.data.input2 ≤ 1000
  output : 0 ≤ w.inst.mv.data.output3 ∧ w.inst.mv.data.output3 ≤ 1000
  qual : w.inst.mv.data.inClock3_qualifier = q

theorem Fmu.mono {w : CWorld} {n : Part → Nat} {k k' : Nat} {q : Int} (h : Fmu w n k q) (hk : k ≤ k') : Fmu w n k' q :=
  ⟨h.state, h.cb, h.one, h.two, h.three, h.total, h.few.trans hk, ⟨h.result.1, by have := h.result.2; omega⟩, h.input, h.output, h.qual⟩

theorem toInt32_int {x : Int} (h0 : 0 ≤ x) (h : x < 2 ^ 31) : toInt32 x = .ret x := by
  unfold toInt32
  rw [if_pos]
  omega

/-- Whether the callback was called. -/
def calledBack (w w' : CWorld) : Bool := (w'.inst.mv.trace.drop w.inst.mv.trace.length).any isClockUpdate

theorem step_activate {w : CWorld} {fuel clock : Nat} {t : XRat} {mv : MV XRat (Clocks.Data XRat)} (hs : w.inst.ctx.state = .clockActivationMode)
    (h : Clocks.activateModelPartition w.inst.ctx w.inst.mv clock t = .ret (mv, .OK, ())) :
    FMI3.step Clocks.model fuel w (.activateModelPartition clock t) = .ret (withMV w mv, .OK, .unit) := by
  simp only [FMI3.step, FMI3.World.run, FMI3.activateModelPartition]
  rw [begin_any hs (by decide)]
  unfold callLast call Comp.lift
  rw [show Clocks.model.activateModelPartition = Clocks.activateModelPartition (F := XRat) from rfl, h]
  rfl

theorem Fmu.activate {w : CWorld} {n : Part → Nat} {k : Nat} {q : Int} (h : Fmu w n k q) (hk : 1000 * (k + 1) < 2 ^ 31) (p : Part) {t : Nat}
    (ht : t < 2 ^ 31) (fuel : Nat) :
    ∃ w', FMI3.step Clocks.model fuel w (.activateModelPartition p.clock (.fin t)) = .ret (w', .OK, .unit) ∧
      Fmu w' (bump n p) (k + 1) (if p = .one ∧ t = 4 then 2 else q) ∧ (p = .one → t = 4 → calledBack w w' = true) := by
  have hr := h.result
  have hi := h.input
  have ho := h.output
  have hf := h.few
  have e2 : toInt32 ((n .one : Int) + n .two + n .three + 1) = .ret ((n .one : Int) + n .two + n .three + 1) := toInt32_int (by omega) (by omega)
  cases p with
  | one =>
    have e1 : toInt32 ((n .one : Int) + 1) = .ret ((n .one : Int) + 1) := toInt32_int (by omega) (by omega)
    let d0 : Clocks.Data XRat := { w.inst.mv.data with inClock1Ticks := (n .one : Int) + 1, totalInClockTicks := (n .one : Int) + n .two + n .three + 1 }
    let d1 : Clocks.Data XRat := setOutClock (if (t : Int) = 4 then { d0 with inClock3_qualifier := 2, inClock3_interval := Arith.lit 0 } else d0)
    have hp : Clocks.activateModelPartition w.inst.ctx w.inst.mv 1001 (.fin t) =
        .ret (finished w.inst.mv d1 (d1.inClock3_qualifier = 2 ∨ d1.outClock ≠ 0), .OK, ()) := by
      simp only [Clocks.activateModelPartition, partition1, h.one, h.total, e1, e2, Outcome.ret_bind, toInt_nat ht, callClockUpdate, h.cb, if_true]
      unfold finished
      by_cases hc : d1.inClock3_qualifier = 2 ∨ d1.outClock ≠ 0
      · rw [if_pos hc, if_pos hc]; rfl
      · rw [if_neg hc, if_neg hc]; rfl
    have hd : (finished w.inst.mv d1 (d1.inClock3_qualifier = 2 ∨ d1.outClock ≠ 0)).data = d1 := by unfold finished emit; split <;> rfl
    have hq1 : d1.inClock3_qualifier = if Part.one = .one ∧ t = 4 then 2 else q := by
      simp only [d1]
      by_cases h4 : t = 4
      · rw [if_pos (by omega), if_pos ⟨trivial, h4⟩]; rfl
      · rw [if_neg (by omega), if_neg (by simp [h4])]; exact h.qual
    have hd1 : d1.inClock1Ticks = (n .one : Int) + 1 ∧ d1.inClock2Ticks = n .two ∧ d1.inClock3Ticks = n .three ∧
        d1.totalInClockTicks = (n .one : Int) + n .two + n .three + 1 ∧ d1.result2 = w.inst.mv.data.result2 ∧ d1.input2 = w.inst.mv.data.input2 ∧
        d1.output3 = w.inst.mv.data.output3 := by
      refine ⟨?_, ?_, ?_, ?_, ?_, ?_, ?_⟩ <;> simp only [d1, setOutClock] <;> split <;> first | rfl | exact h.two | exact h.three
    obtain ⟨c1, c2, c3, c4, c5, c6, c7⟩ := hd1
    refine ⟨_, step_activate h.state hp, ⟨h.state, h.cb, ?_, ?_, ?_, ?_, ?_, ?_, ?_, ?_, ?_⟩, ?_⟩
    · show (finished w.inst.mv d1 _).data.inClock1Ticks = _
      rw [hd, c1]; simp [bump]
    · show (finished w.inst.mv d1 _).data.inClock2Ticks = _
      rw [hd, c2]; simp [bump]
    · show (finished w.inst.mv d1 _).data.inClock3Ticks = _
      rw [hd, c3]; simp [bump]
    · show (finished w.inst.mv d1 _).data.totalInClockTicks = _
      rw [hd, c4]; simp [bump]; omega
    · simp [bump]; omega
    · show 0 ≤ (finished w.inst.mv d1 _).data.result2 ∧ (finished w.inst.mv d1 _).data.result2 ≤ _
      rw [hd, c5]; omega
    · show 0 ≤ (finished w.inst.mv d1 _).data.input2 ∧ (finished w.inst.mv d1 _).data.input2 ≤ _
      rw [hd, c6]; exact hi
    · show 0 ≤ (finished w.inst.mv d1 _).data.output3 ∧ (finished w.inst.mv d1 _).data.output3 ≤ _
      rw [hd, c7]; exact ho
    · show (finished w.inst.mv d1 _).data.inClock3_qualifier = _
      rw [hd, hq1]
    · intro _ h4
      show ((finished w.inst.mv d1 _).trace.drop w.inst.mv.trace.length).any isClockUpdate = true
      unfold finished emit
      rw [if_pos (.inl (by rw [hq1, if_pos ⟨rfl, h4⟩]))]
      simp [isClockUpdate]
  | two =>
    have e1 : toInt32 ((n .two : Int) + 1) = .ret ((n .two : Int) + 1) := toInt32_int (by omega) (by omega)
    have e3 : toInt32 (w.inst.mv.data.result2 + w.inst.mv.data.input2) = .ret (w.inst.mv.data.result2 + w.inst.mv.data.input2) :=
      toInt32_int (by omega) (by omega)
    let d1 : Clocks.Data XRat := setOutClock { w.inst.mv.data with inClock2Ticks := (n .two : Int) + 1, totalInClockTicks := (n .one : Int) + n .two + n .three + 1, result2 := w.inst.mv.data.result2 + w.inst.mv.data.input2, input2 := 0 }
    have hl : ∀ mv : MV XRat (Clocks.Data XRat), (callLock w.inst.ctx mv).data = mv.data := by intro mv; unfold callLock emit; split <;> rfl
    have hu : ∀ mv : MV XRat (Clocks.Data XRat), (callUnlock w.inst.ctx mv).data = mv.data := by intro mv; unfold callUnlock emit; split <;> rfl
    have hp : ∃ mv, Clocks.activateModelPartition w.inst.ctx w.inst.mv 1002 (.fin t) = .ret (mv, .OK, ()) ∧ mv.data = d1 := by
      simp only [Clocks.activateModelPartition, partition2, hl, h.two, h.total, e1, e2, e3, Outcome.ret_bind, callClockUpdate, h.cb, if_true]
      by_cases hc : d1.outClock ≠ 0
      · rw [if_pos hc]; exact ⟨_, rfl, hu _⟩
      · rw [if_neg hc]; exact ⟨_, rfl, hu _⟩
    obtain ⟨mv, hp, hd⟩ := hp
    refine ⟨_, step_activate h.state hp, ⟨h.state, h.cb, ?_, ?_, ?_, ?_, ?_, ?_, ?_, ?_, ?_⟩, fun h => by cases h⟩
    · show mv.data.inClock1Ticks = _
      rw [hd]; simpa [bump, d1, setOutClock] using h.one
    · show mv.data.inClock2Ticks = _
      rw [hd]; simp [bump, d1, setOutClock]
    · show mv.data.inClock3Ticks = _
      rw [hd]; simpa [bump, d1, setOutClock] using h.three
    · show mv.data.totalInClockTicks = _
      rw [hd]; simp [bump, d1, setOutClock]; omega
    · simp [bump]; omega
    · show 0 ≤ mv.data.result2 ∧ mv.data.result2 ≤ _
      rw [hd]; simp only [d1, setOutClock]; omega
    · show 0 ≤ mv.data.input2 ∧ mv.data.input2 ≤ _
      rw [hd]; simp [d1, setOutClock]
    · show 0 ≤ mv.data.output3 ∧ mv.data.output3 ≤ _
      rw [hd]; exact ho
    · show mv.data.inClock3_qualifier = _
      rw [hd, if_neg (by simp)]; exact h.qual
  | three =>
    have e1 : toInt32 ((n .three : Int) + 1) = .ret ((n .three : Int) + 1) := toInt32_int (by omega) (by omega)
    let d1 : Clocks.Data XRat := setOutClock { w.inst.mv.data with inClock3Ticks := (n .three : Int) + 1, output3 := 1000, totalInClockTicks := (n .one : Int) + n .two + n .three + 1 }
    have hl : ∀ mv : MV XRat (Clocks.Data XRat), (callLock w.inst.ctx mv).data = mv.data := by intro mv; unfold callLock emit; split <;> rfl
    have hu : ∀ mv : MV XRat (Clocks.Data XRat), (callUnlock w.inst.ctx mv).data = mv.data := by intro mv; unfold callUnlock emit; split <;> rfl
    have hp : ∃ mv, Clocks.activateModelPartition w.inst.ctx w.inst.mv 1003 (.fin t) = .ret (mv, .OK, ()) ∧ mv.data = d1 := by
      simp only [Clocks.activateModelPartition, partition3, hl, h.three, h.total, e1, e2, Outcome.ret_bind, callClockUpdate, h.cb, if_true]
      by_cases hc : d1.outClock ≠ 0
      · rw [if_pos hc]; exact ⟨_, rfl, hu _⟩
      · rw [if_neg hc]; exact ⟨_, rfl, hu _⟩
    obtain ⟨mv, hp, hd⟩ := hp
    refine ⟨_, step_activate h.state hp, ⟨h.state, h.cb, ?_, ?_, ?_, ?_, ?_, ?_, ?_, ?_, ?_⟩, fun h => by cases h⟩
    · show mv.data.inClock1Ticks = _
      rw [hd]; simpa [bump, d1, setOutClock] using h.one
    · show mv.data.inClock2Ticks = _
      rw [hd]; simpa [bump, d1, setOutClock] using h.two
    · show mv.data.inClock3Ticks = _
      rw [hd]; simp [bump, d1, setOutClock]
    · show mv.data.totalInClockTicks = _
      rw [hd]; simp [bump, d1, setOutClock]; omega
    · simp [bump]; omega
    · show 0 ≤ mv.data.result2 ∧ mv.data.result2 ≤ _
      rw [hd]; simp only [d1, setOutClock]; omega
    · show 0 ≤ mv.data.input2 ∧ mv.data.input2 ≤ _
      rw [hd]; exact hi
    · show 0 ≤ mv.data.output3 ∧ mv.data.output3 ≤ _
      rw [hd]; simp [d1, setOutClock]
    · show mv.data.inClock3_qualifier = _
      rw [hd, if_neg (by simp)]; exact h.qual

theorem Fmu.set {w : CWorld} {n : Part → Nat} {k : Nat} {q : Int} (h : Fmu w n k q) {x : Int} (h0 : 0 ≤ x) (h1 : x ≤ 1000) (fuel : Nat) :
    ∃ w', FMI3.step Clocks.model fuel w (.set .int32 (some [2006]) 1 (some [x]) 1) = .ret (w', .OK, .unit) ∧ Fmu w' n k q := by
  refine ⟨withMV w { w.inst.mv with data := { w.inst.mv.data with input2 := x }, isDirtyValues := true }, ?_,
    h.state, h.cb, h.one, h.two, h.three, h.total, h.few, h.result, ⟨h0, h1⟩, h.output, h.qual⟩
  simp only [FMI3.step, FMI3.World.run, FMI3.setVars]
  rw [begin_any h.state (by decide)]
  rfl

theorem refresh_clocks (w : CWorld) {β : Type} (stop : β) (k : Comp XRat (Clocks.Data XRat) → Status → Res XRat (Clocks.Data XRat) β) :
    refresh Clocks.model .OK w.inst stop k = k (withMV w { w.inst.mv with isDirtyValues := false }).inst .OK := by
  unfold refresh
  cases hd : w.inst.mv.isDirtyValues
  · rw [if_neg (by simp)]
    congr 1
    have : w.inst.mv = { w.inst.mv with isDirtyValues := false } := by rw [← hd]
    change w.inst = { w.inst with mv := { w.inst.mv with isDirtyValues := false } }
    rw [← this]
  · rw [if_pos rfl]; rfl

theorem Fmu.clean {w : CWorld} {n : Part → Nat} {k : Nat} {q : Int} (h : Fmu w n k q) : Fmu (withMV w { w.inst.mv with isDirtyValues := false }) n k q :=
  ⟨h.state, h.cb, h.one, h.two, h.three, h.total, h.few, h.result, h.input, h.output, h.qual⟩

theorem Fmu.get {w : CWorld} {n : Part → Nat} {k : Nat} {q : Int} (h : Fmu w n k q) (p : Part) (fuel : Nat) :
    ∃ w' o, FMI3.step Clocks.model fuel w (.get .int32 (some (outputRefs p)) (outputRefs p).length (some ((outputRefs p).map fun _ => (0 : Int)))
      (outputRefs p).length) = .ret (w', .OK, o) ∧ Fmu w' n k q ∧ ∀ old, 0 ≤ old → old ≤ 1000 → 0 ≤ lastOutput p o old ∧ lastOutput p o old ≤ 1000 := by
  have hs := h.state
  cases p with
  | one =>
    refine ⟨_, .values .int32 (some ([w.inst.mv.data.inClock1Ticks, w.inst.mv.data.totalInClockTicks] : List Int)), ?_, h.clean, fun old h0 h1 => ⟨h0, h1⟩⟩
    simp only [FMI3.step, FMI3.World.run, FMI3.getVars]
    rw [begin_any h.state (by decide), if_neg (by decide)]
    simp only [assertNonNull]
    rw [refresh_clocks]
    rfl
  | two =>
    refine ⟨_, .values .int32 (some ([w.inst.mv.data.inClock2Ticks, w.inst.mv.data.totalInClockTicks, w.inst.mv.data.result2] : List Int)), ?_, h.clean,
      fun old h0 h1 => ⟨h0, h1⟩⟩
    simp only [FMI3.step, FMI3.World.run, FMI3.getVars]
    rw [begin_any h.state (by decide), if_neg (by decide)]
    simp only [assertNonNull]
    rw [refresh_clocks]
    rfl
  | three =>
    refine ⟨_, .values .int32 (some ([w.inst.mv.data.inClock3Ticks, w.inst.mv.data.totalInClockTicks, w.inst.mv.data.output3] : List Int)), ?_, h.clean,
      fun old _ _ => h.output⟩
    simp only [FMI3.step, FMI3.World.run, FMI3.getVars]
    rw [begin_any h.state (by decide), if_neg (by decide)]
    simp only [assertNonNull]
    rw [refresh_clocks]
    rfl

theorem Fmu.clock {w : CWorld} {n : Part → Nat} {k : Nat} {q : Int} (h : Fmu w n k q) (fuel : Nat) :
    ∃ w' o, FMI3.step Clocks.model fuel w (.getClock (some [1005]) 1 (some [false])) = .ret (w', .OK, o) ∧ Fmu w' n k q := by
  refine ⟨withMV w { w.inst.mv with data := { w.inst.mv.data with outClock := 0 } }, .bools (some [decide (w.inst.mv.data.outClock ≠ 0)]), ?_,
    h.state, h.cb, h.one, h.two, h.three, h.total, h.few, h.result, h.input, h.output, h.qual⟩
  simp only [FMI3.step, FMI3.World.run, FMI3.getClock]
  rw [begin_any h.state (by decide)]
  rfl

theorem Fmu.interval {w : CWorld} {n : Part → Nat} {k : Nat} {q : Int} (h : Fmu w n k q) (fuel : Nat) :
    ∃ w' o, FMI3.step Clocks.model fuel w (.getIntervalDecimal (some [1003]) 1 (some [Arith.lit 0]) (some [0])) = .ret (w', .OK, o) ∧
      qualifierValue o = q ∧ Fmu w' n k (if q = 2 then 1 else q) := by
  simp only [FMI3.step, FMI3.World.run, FMI3.getIntervalDecimal]
  rw [begin_any h.state (by decide)]
  have hq := h.qual
  by_cases h2 : q = 2
  · subst h2
    simp only [FMI3.getIntervalLoop, Comp.lift, Clocks.model, Clocks.getInterval, hq, if_true, Outcome.ret_bind, Ptr.read, Ptr.write]
    exact ⟨_, _, rfl, rfl, h.state, h.cb, h.one, h.two, h.three, h.total, h.few, h.result, h.input, h.output, rfl⟩
  · simp only [FMI3.getIntervalLoop, Comp.lift, Clocks.model, Clocks.getInterval, hq, h2, if_false, Outcome.ret_bind, Ptr.read, Ptr.write]
    exact ⟨_, _, rfl, rfl, h.state, h.cb, h.one, h.two, h.three, h.total, h.few, h.result, h.input, h.output, hq⟩

theorem Fmu.shows {s : TProg} {n : Part → Nat} {k : Nat} {q : Int} (h : Fmu s.w n k q) : Shows s (n .one) (n .two) (n .three) := by
  intro fuel
  refine ⟨withMV s.w { s.w.inst.mv with isDirtyValues := false }, ?_⟩
  simp only [FMI3.step, FMI3.World.run, FMI3.getVars]
  rw [begin_any h.state (by decide), if_neg (by decide)]
  rw [← h.total, ← h.one, ← h.two, ← h.three]
  simp only [assertNonNull]
  rw [refresh_clocks]
  rfl

end Verif.Importer.Threads
