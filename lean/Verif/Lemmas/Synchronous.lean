import Verif.Spec.Synchronous
import Verif.Lemmas.Driver

/-! # The program for Scheduled Execution: lemmas for C68 -/

set_option linter.unusedSectionVars false

namespace Verif.Importer.Sync
open Verif Importer.CoSim Clocks

abbrev CWorld := FMI3.World XRat (Clocks.Data XRat)

/-- The FMU has counted `a`, `b` and `c` ticks. -/
structure Counts (d : Clocks.Data XRat) (a b c : Nat) : Prop where
  one : d.inClock1Ticks = a
  two : d.inClock2Ticks = b
  three : d.inClock3Ticks = c
  total : d.totalInClockTicks = a + b + c
  result : d.result2 = 0
  input : d.input2 = 0

/-- The instance can be activated and has counted `a`, `b` and `c` ticks. -/
structure Acts (w : CWorld) (a b c : Nat) : Prop where
  state : w.inst.ctx.state = .clockActivationMode
  cb : w.inst.ctx.clockUpdate = true
  nolock : w.inst.ctx.lockPreemption = false
  nounlock : w.inst.ctx.unlockPreemption = false
  counts : Counts w.inst.mv.data a b c
  qual : w.inst.mv.data.inClock3_qualifier ≠ 2

theorem toInt_nat {t : Nat} (h : t < 2 ^ 31) : (Arith.toInt (XRat.fin (t : Rat)) : Option Int) = some (t : Int) := by
  change XRat.toInt (.fin (t : Rat)) = _
  unfold XRat.toInt
  have h0 : (0 : Rat) ≤ t := Nat.cast_nonneg t
  have h1 : (t : Rat).floor = (t : Int) := by
    have : (t : Rat) = ((t : Int) : Rat) := by push_cast; rfl
    rw [this, Rat.floor_intCast]
  simp only [if_pos h0, h1]
  rw [if_pos]
  omega

theorem toInt32_nat {n : Nat} (h : n < 2 ^ 31) : toInt32 (n : Int) = .ret (n : Int) := by
  unfold toInt32
  rw [if_pos]
  omega

theorem begin_any {β : Type} {c : Comp XRat (Clocks.Data XRat)} {name : String} {stop : β} {mask : Nat} (hs : c.ctx.state = .clockActivationMode)
    (hm : (Mode.clockActivationMode.bit3 &&& mask != 0) = true) {k} : FMI3.begin mask name c stop k = k c := by
  unfold FMI3.begin beginFunction FMI3.allowed
  rw [hs, if_pos hm]

/-- The effect of the callback on the model data. -/
def asked (d : Clocks.Data XRat) : Clocks.Data XRat :=
  if d.inClock3_qualifier = 2 then { d with inClock3_qualifier := 1 } else d

/-- The world with other model data. -/
def withMV (w : CWorld) (mv : MV XRat (Clocks.Data XRat)) : CWorld := { w with inst := { w.inst with mv := mv } }

theorem cb_ret {w : CWorld} {fuel : Nat} (hs : w.inst.ctx.state = .clockActivationMode) :
    cbClockUpdate Clocks.model fuel w = .ret (withMV w { w.inst.mv with data := asked w.inst.mv.data }, w.inst.mv.data.inClock3_qualifier) := by
  unfold cbClockUpdate
  simp only [FMI3.step, FMI3.World.run, FMI3.getIntervalDecimal]
  rw [begin_any hs (by decide)]
  unfold asked
  by_cases h : w.inst.mv.data.inClock3_qualifier = 2
  · simp only [FMI3.getIntervalLoop, Comp.lift, Clocks.model, Clocks.getInterval, h, if_true, Outcome.ret_bind, Ptr.read, Ptr.write]
    rfl
  · simp only [FMI3.getIntervalLoop, Comp.lift, Clocks.model, Clocks.getInterval, h, if_false, Outcome.ret_bind, Ptr.read, Ptr.write]
    rfl

/-- An activation whose model partition gives `mv`, with the callback if the last event of the trace says so. -/
theorem activate_ret {w : CWorld} {fuel clock : Nat} {t : XRat} {q : Int} {mv : MV XRat (Clocks.Data XRat)} (hs : w.inst.ctx.state = .clockActivationMode)
    (h : Clocks.activateModelPartition w.inst.ctx w.inst.mv clock t = .ret (mv, .OK, ()))
    (ht : mv.trace = w.inst.mv.trace ∨ mv.trace = w.inst.mv.trace ++ [.clockUpdate]) :
    ∃ q', (q' = q ∧ activate Clocks.model fuel clock t w q = .ret (withMV w mv, .OK, q') ∧ mv.trace = w.inst.mv.trace) ∨
      (q' = mv.data.inClock3_qualifier ∧ mv.trace = w.inst.mv.trace ++ [.clockUpdate] ∧
        activate Clocks.model fuel clock t w q = .ret (withMV w { mv with data := asked mv.data }, .OK, q')) := by
  have e : FMI3.step Clocks.model fuel w (.activateModelPartition clock t) = .ret (withMV w mv, .OK, .unit) := by
    simp only [FMI3.step, FMI3.World.run, FMI3.activateModelPartition]
    rw [begin_any hs (by decide)]
    unfold callLast call Comp.lift
    rw [show Clocks.model.activateModelPartition = Clocks.activateModelPartition (F := XRat) from rfl, h]
    rfl
  unfold activate
  rw [e, Outcome.ret_bind]
  rcases ht with ht | ht
  · refine ⟨q, .inl ⟨rfl, ?_, ht⟩⟩
    simp only []
    rw [if_neg (by simp [withMV, ht])]
  · refine ⟨mv.data.inClock3_qualifier, .inr ⟨rfl, ht, ?_⟩⟩
    simp only []
    rw [if_pos (by simp [withMV, ht, isClockUpdate])]
    rw [cb_ret (by exact hs)]
    rfl

/-- The end of a model partition: the new data and the callback. -/
def finished (mv : MV XRat (Clocks.Data XRat)) (d : Clocks.Data XRat) (cb : Prop) [Decidable cb] : MV XRat (Clocks.Data XRat) :=
  if cb then emit { mv with data := d } .clockUpdate else { mv with data := d }

theorem activate_finished {w : CWorld} {fuel clock : Nat} {t : XRat} {q : Int} {d : Clocks.Data XRat} {cb : Prop} [Decidable cb] (hs : w.inst.ctx.state = .clockActivationMode)
    (h : Clocks.activateModelPartition w.inst.ctx w.inst.mv clock t = .ret (finished w.inst.mv d cb, .OK, ())) :
    ∃ w' q', activate Clocks.model fuel clock t w q = .ret (w', .OK, q') ∧ w'.inst.ctx = w.inst.ctx ∧
      ((¬cb ∧ q' = q ∧ w'.inst.mv.data = d) ∨ (cb ∧ q' = d.inClock3_qualifier ∧ w'.inst.mv.data = asked d)) := by
  have hd : (finished w.inst.mv d cb).data = d := by unfold finished emit; split <;> rfl
  have ht : (cb ∧ (finished w.inst.mv d cb).trace = w.inst.mv.trace ++ [.clockUpdate]) ∨ (¬cb ∧ (finished w.inst.mv d cb).trace = w.inst.mv.trace) := by
    unfold finished emit; split <;> simp_all
  obtain ⟨q', ⟨h1, h2, h3⟩ | ⟨h1, h2, h3⟩⟩ := activate_ret (fuel := fuel) (q := q) hs h (ht.elim (fun h => .inr h.2) fun h => .inl h.2)
  · refine ⟨_, q', h2, rfl, .inl ⟨?_, h1, hd⟩⟩
    rcases ht with h | h
    · rw [h.2] at h3; simp at h3
    · exact h.1
  · refine ⟨_, q', h3, rfl, .inr ⟨?_, by rw [h1, hd], ?_⟩⟩
    · rcases ht with h | h
      · exact h.1
      · rw [h.2] at h2; simp at h2
    · change asked (finished w.inst.mv d cb).data = _
      rw [hd]

theorem asked_of_ne {d : Clocks.Data XRat} (h : d.inClock3_qualifier ≠ 2) : asked d = d := if_neg h

theorem Counts.asked {d : Clocks.Data XRat} {a b c : Nat} (h : Counts d a b c) : Counts (asked d) a b c := by
  unfold Sync.asked; split
  · exact ⟨h.1, h.2, h.3, h.4, h.5, h.6⟩
  · exact h

theorem asked_qual {d : Clocks.Data XRat} : (asked d).inClock3_qualifier ≠ 2 := by
  unfold asked; split <;> simp_all

theorem Acts.next {w w' : CWorld} {a b c a' b' c' : Nat} (h : Acts w a b c) (hx : w'.inst.ctx = w.inst.ctx) {d : Clocks.Data XRat} (hd : Counts d a' b' c')
    {cb : Prop} {q q' : Int} (hcb : d.inClock3_qualifier = 2 → cb)
    (hc : (¬cb ∧ q' = q ∧ w'.inst.mv.data = d) ∨ (cb ∧ q' = d.inClock3_qualifier ∧ w'.inst.mv.data = Sync.asked d)) : Acts w' a' b' c' := by
  refine ⟨hx ▸ h.1, hx ▸ h.2, hx ▸ h.3, hx ▸ h.4, ?_, ?_⟩
  · rcases hc with ⟨-, -, e⟩ | ⟨-, -, e⟩ <;> rw [e]
    exacts [hd, hd.asked]
  · rcases hc with ⟨k, -, e⟩ | ⟨-, -, e⟩ <;> rw [e]
    exacts [fun h => k (hcb h), asked_qual]

theorem act1 {w : CWorld} {a b c : Nat} (h : Acts w a b c) (hb : a + b + c + 1 < 2 ^ 31) {t : Nat} (ht : t < 2 ^ 31) {q : Int} (hq : q ≠ 2) (fuel : Nat) :
    ∃ w' q', activate Clocks.model fuel 1001 (.fin t) w q = .ret (w', .OK, q') ∧ Acts w' (a + 1) b c ∧ (q' = 2 ↔ t = 4) := by
  have hk := h.counts
  have e1 : toInt32 ((a : Int) + 1) = .ret ((a : Int) + 1) := toInt32_nat (n := a + 1) (by omega)
  have e2 : toInt32 ((a : Int) + b + c + 1) = .ret ((a : Int) + b + c + 1) := toInt32_nat (n := a + b + c + 1) (by omega)
  let d0 : Clocks.Data XRat := { w.inst.mv.data with inClock1Ticks := (a : Int) + 1, totalInClockTicks := (a : Int) + b + c + 1 }
  let d1 : Clocks.Data XRat := setOutClock (if (t : Int) = 4 then { d0 with inClock3_qualifier := 2, inClock3_interval := Arith.lit 0 } else d0)
  have hp : Clocks.activateModelPartition w.inst.ctx w.inst.mv 1001 (.fin t) =
      .ret (finished w.inst.mv d1 (d1.inClock3_qualifier = 2 ∨ d1.outClock ≠ 0), .OK, ()) := by
    simp only [Clocks.activateModelPartition, partition1, hk.one, hk.total, e1, e2, Outcome.ret_bind, toInt_nat ht, callClockUpdate, h.cb, if_true]
    unfold finished
    by_cases hc : d1.inClock3_qualifier = 2 ∨ d1.outClock ≠ 0
    · rw [if_pos hc, if_pos hc]; rfl
    · rw [if_neg hc, if_neg hc]; rfl
  obtain ⟨w', q', e, hx, hcase⟩ := activate_finished (fuel := fuel) (q := q) h.state hp
  have hd0 : Counts d0 (a + 1) b c := ⟨by simp [d0], hk.two, hk.three, by simp only [d0]; push_cast; omega, hk.result, hk.input⟩
  have hd1 : Counts d1 (a + 1) b c := by
    simp only [d1]; split <;> exact ⟨hd0.1, hd0.2, hd0.3, hd0.4, hd0.5, hd0.6⟩
  refine ⟨w', q', e, h.next hx hd1 .inl hcase, ?_⟩
  by_cases h4 : t = 4
  · have hq2 : d1.inClock3_qualifier = 2 := by simp only [d1]; rw [if_pos (by omega)]; rfl
    rcases hcase with ⟨hn, -⟩ | ⟨-, hq', -⟩
    · exact absurd (.inl hq2) hn
    · rw [hq', hq2]; simp [h4]
  · have hq2 : d1.inClock3_qualifier ≠ 2 := by simp only [d1]; rw [if_neg (by omega)]; exact h.qual
    rcases hcase with ⟨-, hq', -⟩ | ⟨-, hq', -⟩ <;> simp [hq', hq, hq2, h4]

theorem act2 {w : CWorld} {a b c : Nat} (h : Acts w a b c) (hb : a + b + c + 1 < 2 ^ 31) {t : XRat} {q : Int} (hq : q ≠ 2) (fuel : Nat) :
    ∃ w' q', activate Clocks.model fuel 1002 t w q = .ret (w', .OK, q') ∧ Acts w' a (b + 1) c ∧ q' ≠ 2 := by
  have hk := h.counts
  have e1 : toInt32 ((b : Int) + 1) = .ret ((b : Int) + 1) := toInt32_nat (n := b + 1) (by omega)
  have e2 : toInt32 ((a : Int) + b + c + 1) = .ret ((a : Int) + b + c + 1) := toInt32_nat (n := a + b + c + 1) (by omega)
  have e3 : toInt32 ((0 : Int) + 0) = .ret 0 := toInt32_nat (n := 0) (by omega)
  let d1 : Clocks.Data XRat := setOutClock { w.inst.mv.data with inClock2Ticks := (b : Int) + 1, totalInClockTicks := (a : Int) + b + c + 1, result2 := 0, input2 := 0 }
  have hp : Clocks.activateModelPartition w.inst.ctx w.inst.mv 1002 t = .ret (finished w.inst.mv d1 (d1.outClock ≠ 0), .OK, ()) := by
    simp only [Clocks.activateModelPartition, partition2, callLock, callUnlock, h.nolock, h.nounlock, Bool.false_eq_true, if_false, hk.two, hk.total, hk.result,
      hk.input, e1, e2, e3, Outcome.ret_bind, callClockUpdate, h.cb, if_true]
    unfold finished
    by_cases hc : d1.outClock ≠ 0
    · rw [if_pos hc, if_pos hc]; rfl
    · rw [if_neg hc, if_neg hc]; rfl
  obtain ⟨w', q', e, hx, hcase⟩ := activate_finished (fuel := fuel) (q := q) h.state hp
  have hq2 : d1.inClock3_qualifier ≠ 2 := h.qual
  refine ⟨w', q', e, h.next hx (d := d1) ⟨hk.one, by simp [d1, setOutClock], hk.three, by simp only [d1, setOutClock]; push_cast; omega, rfl, rfl⟩
    (fun h => absurd h hq2) hcase, ?_⟩
  rcases hcase with ⟨-, hq', -⟩ | ⟨-, hq', -⟩ <;> simp [hq', hq, hq2]

theorem act3 {w : CWorld} {a b c : Nat} (h : Acts w a b c) (hb : a + b + c + 1 < 2 ^ 31) {t : XRat} {q : Int} (fuel : Nat) :
    ∃ w' q', activate Clocks.model fuel 1003 t w q = .ret (w', .OK, q') ∧ Acts w' a b (c + 1) := by
  have hk := h.counts
  have e1 : toInt32 ((c : Int) + 1) = .ret ((c : Int) + 1) := toInt32_nat (n := c + 1) (by omega)
  have e2 : toInt32 ((a : Int) + b + c + 1) = .ret ((a : Int) + b + c + 1) := toInt32_nat (n := a + b + c + 1) (by omega)
  let d1 : Clocks.Data XRat := setOutClock { w.inst.mv.data with inClock3Ticks := (c : Int) + 1, output3 := 1000, totalInClockTicks := (a : Int) + b + c + 1 }
  have hp : Clocks.activateModelPartition w.inst.ctx w.inst.mv 1003 t = .ret (finished w.inst.mv d1 (d1.outClock ≠ 0), .OK, ()) := by
    simp only [Clocks.activateModelPartition, partition3, callLock, callUnlock, h.nolock, h.nounlock, Bool.false_eq_true, if_false, hk.three, hk.total,
      e1, e2, Outcome.ret_bind, callClockUpdate, h.cb, if_true]
    unfold finished
    by_cases hc : d1.outClock ≠ 0
    · rw [if_pos hc, if_pos hc]; rfl
    · rw [if_neg hc, if_neg hc]; rfl
  obtain ⟨w', q', e, hx, hcase⟩ := activate_finished (fuel := fuel) (q := q) h.state hp
  have hq2 : d1.inClock3_qualifier ≠ 2 := h.qual
  exact ⟨w', q', e, h.next hx (d := d1) ⟨hk.one, hk.two, by simp [d1, setOutClock], by simp only [d1, setOutClock]; push_cast; omega, hk.result, hk.input⟩
    (fun h => absurd h hq2) hcase⟩

theorem getClock_ok {w : CWorld} {a b c : Nat} (h : Acts w a b c) (fuel : Nat) :
    ∃ w' v, FMI3.step Clocks.model fuel w (.getClock (some [1005]) 1 (some [false, false])) = .ret (w', .OK, v) ∧ Acts w' a b c := by
  have hk := h.counts
  refine ⟨withMV w { w.inst.mv with data := { w.inst.mv.data with outClock := 0 } }, .bools (some [decide (w.inst.mv.data.outClock ≠ 0), false]), ?_,
    h.1, h.2, h.3, h.4, ⟨hk.1, hk.2, hk.3, hk.4, hk.5, hk.6⟩, h.qual⟩
  simp only [FMI3.step, FMI3.World.run, FMI3.getClock]
  rw [begin_any h.state (by decide)]
  rfl

theorem record_ok {w : CWorld} {a b c : Nat} (h : Acts w a b c) (fuel : Nat) :
    ∃ w', AllOK (FMI3.step Clocks.model fuel) w record w' [.values .int32 (some ([a, b, c, a + b + c] : List Int))] ∧ Acts w' a b c := by
  have hk := h.counts
  refine ⟨withMV w { w.inst.mv with isDirtyValues := false }, .cons ?_ .nil, h.1, h.2, h.3, h.4, ⟨hk.1, hk.2, hk.3, hk.4, hk.5, hk.6⟩, h.qual⟩
  simp only [FMI3.step, FMI3.World.run, FMI3.getVars]
  rw [begin_any h.state (by decide)]
  have hr : ∀ {β : Type} (stop : β) (k : Comp XRat (Clocks.Data XRat) → Status → Res XRat (Clocks.Data XRat) β),
      refresh Clocks.model .OK w.inst stop k = k (withMV w { w.inst.mv with isDirtyValues := false }).inst .OK := by
    intro β stop k
    unfold refresh
    cases hd : w.inst.mv.isDirtyValues
    · rw [if_neg (by simp)]
      congr 1
      have : w.inst.mv = { w.inst.mv with isDirtyValues := false } := by rw [← hd]
      change w.inst = { w.inst with mv := { w.inst.mv with isDirtyValues := false } }
      rw [← this]
    · rw [if_pos rfl]; rfl
  rw [← hk.total, ← hk.one, ← hk.two, ← hk.three, if_neg (by decide)]
  simp only [assertNonNull]
  rw [hr]
  rfl

theorem ACTIVATE_ok {w w' : CWorld} {fuel clock : Nat} {t : XRat} {q q' : Int} {rows k} (h : activate Clocks.model fuel clock t w q = .ret (w', .OK, q')) :
    ACTIVATE Clocks.model fuel clock t w q rows k = k w' q' := by
  unfold ACTIVATE
  rw [h, Outcome.ret_bind]
  rfl

theorem secondActive_iff (t : Nat) : secondActive t = true ↔ Second t := by
  unfold secondActive Second
  rw [Bool.or_eq_true, decide_eq_true_eq, decide_eq_true_eq]
  rcases t with _ | t
  · simp
  · have h1 : ((t + 1 : Nat) : Int).tmod 8 = ((t + 1 : Nat) : Int) % 8 := Int.tmod_eq_emod_of_nonneg (by omega)
    have h2 : (((t + 1 : Nat) : Int) - 1).tmod 8 = (((t + 1 : Nat) : Int) - 1) % 8 := Int.tmod_eq_emod_of_nonneg (by omega)
    rw [h1, h2]
    omega

/-- The number of ticks before the second `t`. -/
def before (active : Nat → Prop) [DecidablePred active] (t : Nat) : Nat := (List.range t).countP fun s => decide (active s)

theorem before_succ (active : Nat → Prop) [DecidablePred active] (t : Nat) : before active (t + 1) = before active t + if active t then 1 else 0 := by
  unfold before
  rw [List.range_succ, List.countP_append]
  by_cases h : active t <;> simp [h]

theorem before_le (active : Nat → Prop) [DecidablePred active] (t : Nat) : before active t ≤ t := by
  unfold before
  exact (List.countP_le_length).trans (by simp)

theorem terminate_ok {w : CWorld} {a b c : Nat} (h : Acts w a b c) (fuel : Nat) :
    ∃ w' o, FMI3.step Clocks.model fuel w .terminate = .ret (w', .OK, o) := by
  refine ⟨{ w with inst := w.inst.setState .terminated }, .unit, ?_⟩
  simp only [FMI3.step, FMI3.World.run, FMI3.terminate]
  rw [begin_any h.state (by decide)]
  rfl

theorem syncLoop_ok {fuel : Nat} {stop : Nat} (hb : 3 * stop < 2 ^ 31) : ∀ {n t : Nat} {w : CWorld} {q : Int}, t ≤ stop → stop < t + n → q ≠ 2 →
    Acts w t (before Second t) (before (· = 4) t) →
    syncLoop Clocks.model fuel stop n t w q ((List.range t).map expectedRow) = .ret (.OK, (List.range stop).map expectedRow) := by
  intro n
  induction n with
  | zero => intro t w q h1 h2; omega
  | succ n ih =>
    intro t w q h1 h2 hq h
    unfold syncLoop
    simp only []
    have b2 := before_le Second t
    have b3 := before_le (· = 4) t
    by_cases ht : t < stop
    · rw [if_pos (by omega)]
      obtain ⟨w₁, q₁, e₁, a₁, hq₁⟩ := act1 h (by omega) (t := t) (by omega) hq fuel
      have hcast : (Arith.lit (((t : Nat) : Int) : Rat) : XRat) = .fin (t : Rat) := by
        change XRat.fin _ = _
        congr 1
      rw [hcast, ACTIVATE_ok e₁]
      -- the rest of the pass
      have key : ∀ {w q}, Acts w (t + 1) (before Second (t + 1)) (before (· = 4) (t + 1)) → q ≠ 2 →
          (CALLS (api3 Clocks.model fuel (Arith.lit 0)) [.getClock (some [1005]) 1 (some [false, false])] w ((List.range t).map expectedRow) fun w _ =>
            CALLS (api3 Clocks.model fuel (Arith.lit 0)) record w ((List.range t).map expectedRow) fun w vs =>
            syncLoop Clocks.model fuel stop n ((t : Int) + 1) w q ((List.range t).map expectedRow ++ [⟨.fin t, vs⟩])) =
          .ret (.OK, (List.range stop).map expectedRow) := by
        intro w q h hq
        obtain ⟨w₄, v₄, e₄, a₄⟩ := getClock_ok h fuel
        obtain ⟨w₅, e₅, a₅⟩ := record_ok a₄ fuel
        rw [CALLS_ok (api := api3 Clocks.model fuel (Arith.lit 0)) (AllOK.cons (call := FMI3.step Clocks.model fuel) e₄ .nil), CALLS_ok (api := api3 Clocks.model fuel (Arith.lit 0)) e₅]
        have := ih (t := t + 1) (w := w₅) (q := q) (by omega) (by omega) hq a₅
        rw [List.range_succ, List.map_append] at this
        rw [← this]
        push_cast
        rfl
      by_cases h8 : Second t
      · rw [if_pos ((secondActive_iff t).2 h8)]
        have h4 : t ≠ 4 := by rintro rfl; revert h8; decide
        obtain ⟨w₂, q₂, e₂, a₂, hq₂⟩ := act2 a₁ (by omega) (t := .fin t) (q := q₁) (fun e => h4 (hq₁.1 e)) fuel
        rw [ACTIVATE_ok e₂, if_neg hq₂]
        refine key ?_ hq₂
        rw [before_succ, before_succ, if_pos h8, if_neg h4]
        exact a₂
      · rw [if_neg (fun e => h8 ((secondActive_iff t).1 e))]
        by_cases h4 : t = 4
        · rw [if_pos (hq₁.2 h4)]
          obtain ⟨w₃, q₃, e₃, a₃⟩ := act3 a₁ (by omega) (t := .fin t) (q := q₁) fuel
          rw [ACTIVATE_ok e₃]
          refine key ?_ (by decide)
          rw [before_succ, before_succ, if_neg h8, if_pos h4]
          exact a₃
        · rw [if_neg (fun e => h4 (hq₁.1 e))]
          refine key ?_ (fun e => h4 (hq₁.1 e))
          rw [before_succ, before_succ, if_neg h8, if_neg h4]
          exact a₁
    · rw [if_neg (by omega)]
      obtain rfl : t = stop := by omega
      obtain ⟨w', o, e⟩ := terminate_ok h fuel
      exact tearDown_ok (api := api3 Clocks.model fuel (Arith.lit 0)) e

end Verif.Importer.Sync
