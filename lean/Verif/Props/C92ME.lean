import Verif.Lemmas.StairStuck
import Mathlib.Tactic.Linarith

/-!
# C92 for the Model Exchange programs
-/

set_option linter.unusedSectionVars false

namespace Verif
open Importer.CoSim Stair

/-- What the recorded values satisfy whenever the program is in Continuous-Time Mode. -/
theorem Importer.Euler.Drives.recording {F W V : Type} [Arith F] [HasInf F] {api : Importer.Euler.Api F W} {record : W → Outcome (W × Status × List V)}
    {cfg : Importer.Euler.Config F} {E C T : W → Prop} {J : EventInfo F → Prop} {P : List V → Prop}
    (H : Importer.Euler.Drives api record cfg E C T J fun _ => True) (hP : ∀ {w w' vs}, C w → record w = .ret (w', .OK, vs) → P vs) :
    Importer.Euler.Drives api record cfg E C T J P :=
  { H with record := fun h => (H.record h).elim fun w' h' => h'.elim fun vs h'' => ⟨w', vs, h''.1, h''.2.1, hP h h''.1⟩ }

/-- With exact arithmetic, the first event is stepped over if no time is between 0.9 and 1.1. -/
theorem missed_of {h : Rat} (h0 : 0 ≤ h) (hk : ∀ k : Nat, (k : Rat) * h ≤ 9 / 10 ∨ 11 / 10 ≤ (k : Rat) * h) (k : Nat) :
    isClose (timeAfter (XRat.fin h) k) (Arith.lit 1 : XRat) = false := by
  rw [timeAfter_eq, zero_add]
  show isClose (XRat.fin _) (XRat.fin 1) = false
  rw [isClose_fin_false]
  have h1 : (0 : Rat) ≤ k * h := mul_nonneg (Nat.cast_nonneg _) h0
  rcases hk k with h2 | h2
  · unfold Close tol
    rw [abs_of_nonpos (by linarith), abs_of_nonneg h1, abs_of_pos one_pos, max_eq_right (by linarith)]
    rintro (h3 | h3) <;> linarith
  · unfold Close tol
    rw [abs_of_nonneg (by linarith), abs_of_nonneg h1, abs_of_pos one_pos, max_eq_left (by linarith)]
    rintro (h3 | h3) <;> linarith

theorem missed_seven (k : Nat) : isClose (timeAfter (XRat.fin (7 / 10)) k) (Arith.lit 1 : XRat) = false := by
  refine missed_of (by norm_num) (fun k => ?_) k
  rcases Nat.lt_or_ge k 2 with h | h
  · have : (k : Rat) ≤ 1 := by exact_mod_cast Nat.le_of_lt_succ h
    left; linarith
  · have : (2 : Rat) ≤ k := by exact_mod_cast h
    right; linarith

namespace FMI2
variable {F : Type} [Arith F] [HasInf F]

/-- **C92 is violated** by the program for Model Exchange, FMI 2.0: whatever the step size and the stop time, the program ends without error, but the last
stair, with which the simulation ends, is in no row: every row shows a counter less than 10. -/
theorem C92_violated_me {h stop : F} {N : Nat} (hN : N < 2 ^ 64) (hstop : ∀ k ≤ N, (stop <=. timeAfter h k) = decide (k = N))
    {fuel n : Nat} (hf : 0 < fuel) (hn : N < n) (resource : Ptr UInt8) :
    ∃ rows, Importer.Euler.simulate2 Stair.model .built { stair2 with h := h, stopTime := stop } fuel n resource = .ret (.OK, rows) ∧
      ∀ row ∈ rows, ∃ i : Int, i < 10 ∧ row.values = [.ints (some [i])] := by
  have hm : Describes (Stair.model : Model F Data) .stair := .stair
  obtain ⟨c, l, hc⟩ := createdME hm resource
  obtain ⟨w₀, vs, ha, ho⟩ := startedME (p := .stair) hm hc trivial (stop := stop)
  have ht : c.ctx.typ = .modelExchange := (createModelInstance_ctx (show createModelInstance (Stair.model : Model F Data) false true false (some "instance1")
    (some (Stair.model : Model F Data).token) resource false true .modelExchange = (some c, l) from hc)).1
  have hr : ∀ op ∈ (stair2 : Program F (Op F)).record, Gets (Stair.model : Model F Data) .stair op := fun op h => by
    simp only [stair2, List.mem_singleton] at h; subst h
    exact .getInteger rfl rfl (by simp [Profile.declares, Profile.stair])
  obtain ⟨s, e, hE⟩ := Importer.Euler.simulate_succeeds
    ((drivesME hm ht trivial hr (cfg := ⟨0, 0, h, stop, true⟩) (.inl rfl) (.inl rfl)).recording
      (P := fun vs => ∃ i : Int, i < 10 ∧ vs = [.ints (some [i])]) fun {w w' vs} hw e => by
        refine ⟨w.inst.mv.data.counter, ?_, stair_recorded (calls_allOK e)⟩
        exact Int.not_le.1 hw.over) hf hN hstop ho hn
  obtain ⟨w', v', et⟩ := hE.mode
  refine ⟨s.w.rows, ?_, hE.values⟩
  unfold Importer.Euler.simulate2
  rw [hc]
  simp only []
  rw [CALLS_ok (api := api2 Stair.model 0 h) ha]
  show (Importer.Euler.simulate _ ⟨0, 0, h, stop, true⟩ _ _ _ >>- _) = _
  rw [e]
  simp only [Outcome.ret_bind, Bool.false_eq_true, if_false, hE.status]
  exact tearDown_ok (api := api2 Stair.model 0 h) et

/-- The program as it is, with exact arithmetic: one row for every step and a second one after the event of every
second; the last row, at 9, still shows the counter 9. -/
example : Importer.Euler.simulate2 (Stair.model : Model XRat Data) .built stair2 1 60 none =
    .ret (.OK, (List.range 46).flatMap fun k => ((if k % 5 = 0 ∧ 0 < k then [k / 5] else []) ++ if k < 45 then [k / 5 + 1] else []).map fun i =>
      ⟨timeAfter (XRat.fin (1 / 5)) k, [.ints (some [(i : Int)])]⟩) := by decide +kernel

/-- The hypotheses of `C92_violated_me` hold for the program as it is. -/
example : ∃ rows, Importer.Euler.simulate2 (Stair.model : Model XRat Data) .built
      { stair2 with h := XRat.fin (1 / 5), stopTime := XRat.fin 10 } 1 60 none = .ret (.OK, rows) ∧
    ∀ row ∈ rows, ∃ i : Int, i < 10 ∧ row.values = [.ints (some [i])] :=
  C92_violated_me (N := 50) (by decide) (by decide +kernel) (by decide) (by decide) none

/-- **C92 is violated** by the program for Model Exchange, FMI 2.0, in another way: it does not end its steps at the time events. If it steps over the first event,
at 1 second, which it does with every step size of which 1 is not a multiple, then the counter stays 1 for ever: there are rows for all times up to the stop time, and
all of them show the counter 1. -/
theorem C92_violated_step {h stop : F} {N : Nat} (hN : N < 2 ^ 64) (hstop : ∀ k ≤ N, (stop <=. timeAfter h k) = decide (k = N))
    (hmiss : ∀ k, isClose (timeAfter h k) (Arith.lit 1 : F) = false) {fuel n : Nat} (hf : 0 < fuel) (hn : N < n) (resource : Ptr UInt8) :
    ∃ rows, Importer.Euler.simulate2 Stair.model .built { stair2 with h := h, stopTime := stop } fuel n resource = .ret (.OK, rows) ∧
      (∀ k ≤ N, timeAfter h k ∈ rows.map Row.time) ∧ ∀ row ∈ rows, row.values = [.ints (some [1])] := by
  have hm : Describes (Stair.model : Model F Data) .stair := .stair
  obtain ⟨c, l, hc⟩ := createdME hm resource
  obtain ⟨w₀, vs, ha, ho⟩ := startedME (p := .stair) hm hc trivial (stop := stop)
  have hc' : createModelInstance (Stair.model : Model F Data) false true false (some "instance1")
    (some (Stair.model : Model F Data).token) resource false true .modelExchange = (some c, l) := hc
  have ht : c.ctx.typ = .modelExchange := (createModelInstance_ctx hc').1
  have hr : ∀ op ∈ (stair2 : Program F (Op F)).record, Gets (Stair.model : Model F Data) .stair op := fun op h => by
    simp only [stair2, List.mem_singleton] at h; subst h
    exact .getInteger rfl rfl (by simp [Profile.declares, Profile.stair])
  have h0 : isClose (Arith.lit 0 : F) (Arith.lit 1) = false := by simpa [timeAfter] using hmiss 0
  have hs : Stuck w₀.inst := by
    cases ha with
    | cons e1 ha =>
    cases ha with
    | cons e2 ha =>
    cases ha with
    | cons e3 ha =>
    cases ha
    have hmv := createModelInstance_mv hc'
    exact stuck_step (stuck_step (stuck_setup (w := .fresh c) (by show c.mv.data.counter = 1; rw [hmv]; rfl) (by show c.mv.nextEventTime = _; rw [hmv]; rfl) h0 e1)
      (by simp [Op.fn]) e2) (by simp [Op.fn]) e3
  obtain ⟨s, e, hE⟩ := Importer.Euler.simulate_succeeds
    ((drivesME hm ht trivial hr (cfg := ⟨0, 0, h, stop, true⟩) (.inl rfl) (.inl rfl)).keeping (R := fun w => Stuck w.inst)
      (P := fun vs => vs = [.ints (some [1])]) rfl rfl stuck_update
      (fun h e => by obtain ⟨⟨w1, s1, o1⟩, e1, e2⟩ := Outcome.bind_eq_ret.1 e; cases e2; exact stuck_step h (by simp [Op.fn]) e1)
      (fun h e => by obtain ⟨⟨w1, s1, o1⟩, e1, e2⟩ := Outcome.bind_eq_ret.1 e; cases e2; exact stuck_step h (by simp [Op.fn]) e1)
      (fun {w w' k} h e => by
        obtain ⟨⟨w1, s1, o1⟩, e1, e2⟩ := Outcome.bind_eq_ret.1 e; cases e2; exact stuck_setTime h.counter h.next (hmiss k) e1)
      (fun h e => by
        obtain ⟨⟨w1, s1, o1⟩, e1, e2⟩ := Outcome.bind_eq_ret.1 e
        have e3 := Prod.mk.inj (Outcome.ret.inj e2)
        obtain rfl := e3.1
        exact stuck_step h (by simp [Op.fn]) e1)
      fun {w w' vs} h e => by
        have h1 := calls_allOK e
        have h2 := stair_recorded h1
        rw [h.counter] at h2
        refine ⟨?_, h2⟩
        simp only [stair2] at h1
        cases h1 with
        | cons e1 h1 => cases h1; exact stuck_step h (by simp [Op.fn]) e1) hf hN hstop ⟨ho, hs⟩ hn
  obtain ⟨w', v', et⟩ := hE.mode
  obtain ⟨k, hk, hcov, hend⟩ := hE.rows
  have hk' : k = N + 1 := hend.resolve_right fun h => by rw [h.1.2] at h; cases h.2
  subst hk'
  refine ⟨s.w.rows, ?_, fun k hk => hcov.mem k (by omega), hE.values⟩
  unfold Importer.Euler.simulate2
  rw [hc]
  simp only []
  rw [CALLS_ok (api := api2 Stair.model 0 h) ha]
  show (Importer.Euler.simulate _ ⟨0, 0, h, stop, true⟩ _ _ _ >>- _) = _
  rw [e]
  simp only [Outcome.ret_bind, Bool.false_eq_true, if_false, hE.status]
  exact tearDown_ok (api := api2 Stair.model 0 h) et

/-- With the step size 0.7 the counter is still 1 at the time 9.8. -/
example (resource : Ptr UInt8) : ∃ rows, Importer.Euler.simulate2 (Stair.model : Model XRat Data) .built
      { stair2 with h := XRat.fin (7 / 10), stopTime := XRat.fin (49 / 5) } 1 15 resource = .ret (.OK, rows) ∧
    (∀ k ≤ 14, timeAfter (XRat.fin (7 / 10)) k ∈ rows.map Row.time) ∧ ∀ row ∈ rows, row.values = [.ints (some [1])] :=
  C92_violated_step (N := 14) (by decide) (by decide +kernel) missed_seven (by decide) (by decide) resource

end FMI2

namespace FMI3
variable {F : Type} [Arith F] [HasInf F]

/-- **C92 is violated** by the program for Model Exchange, FMI 3.0, in the same way. -/
theorem C92_violated_me {h stop : F} {N : Nat} (hN : N < 2 ^ 64) (hstop : ∀ k ≤ N, (stop <=. timeAfter h k) = decide (k = N))
    {fuel n : Nat} (hf : 0 < fuel) (hn : N < n) (resource : Ptr UInt8) :
    ∃ rows, Importer.Euler.simulate3 Stair.model .built { stair3 with h := h, stopTime := stop } fuel n resource = .ret (.OK, rows) ∧
      ∀ row ∈ rows, ∃ i : Int, i < 10 ∧ row.values = [.values .int32 (some [i])] := by
  have hm : Describes (Stair.model : Model F Data) .stair := .stair
  obtain ⟨c, l, hc⟩ := createdME hm rfl resource
  obtain ⟨ht, w₀, vs, ha, ho⟩ := startedME (p := .stair) hm hc trivial (stop := stop)
  have hr : ∀ op ∈ (stair3 : Program F (Op F)).record, Gets (Stair.model : Model F Data) .stair op := fun op h => by
    simp only [stair3, List.mem_singleton] at h; subst h
    exact .get rfl rfl (by simp [Profile.declares, Profile.stair])
  obtain ⟨s, e, hE⟩ := Importer.Euler.simulate_succeeds
    ((drivesME hm ht trivial hr (cfg := ⟨0, 0, h, stop, false⟩) (.inl rfl) (.inl rfl)).recording
      (P := fun vs => ∃ i : Int, i < 10 ∧ vs = [.values .int32 (some [i])]) fun {w w' vs} hw e => by
        refine ⟨w.inst.mv.data.counter, ?_, stair_recorded (calls_allOK e)⟩
        exact Int.not_le.1 hw.over) hf hN hstop ho hn
  obtain ⟨w', v', et⟩ := hE.mode
  refine ⟨s.w.rows, ?_, hE.values⟩
  unfold Importer.Euler.simulate3
  rw [hc]
  simp only []
  rw [CALLS_ok (api := api3 Stair.model 0 h) ha]
  show (Importer.Euler.simulate _ ⟨0, 0, h, stop, false⟩ _ _ _ >>- _) = _
  rw [e]
  simp only [Outcome.ret_bind, Bool.false_eq_true, if_false, hE.status]
  exact tearDown_ok (api := api3 Stair.model 0 h) et

/-- The program as it is, with exact arithmetic. -/
example : Importer.Euler.simulate3 (Stair.model : Model XRat Data) .built stair3 1 60 none =
    .ret (.OK, (List.range 46).flatMap fun k => ((if k % 5 = 0 ∧ 0 < k then [k / 5] else []) ++ if k < 45 then [k / 5 + 1] else []).map fun i =>
      ⟨timeAfter (XRat.fin (1 / 5)) k, [.values .int32 (some [(i : Int)])]⟩) := by decide +kernel

/-- The hypotheses of `C92_violated_me` hold for the program as it is. -/
example : ∃ rows, Importer.Euler.simulate3 (Stair.model : Model XRat Data) .built
      { stair3 with h := XRat.fin (1 / 5), stopTime := XRat.fin 10 } 1 60 none = .ret (.OK, rows) ∧
    ∀ row ∈ rows, ∃ i : Int, i < 10 ∧ row.values = [.values .int32 (some [i])] :=
  C92_violated_me (N := 50) (by decide) (by decide +kernel) (by decide) (by decide) none

/-- **C92 is violated** by the program for Model Exchange, FMI 3.0, if it steps over the first event, as with FMI 2.0. -/
theorem C92_violated_step {h stop : F} {N : Nat} (hN : N < 2 ^ 64) (hstop : ∀ k ≤ N, (stop <=. timeAfter h k) = decide (k = N))
    (hmiss : ∀ k, isClose (timeAfter h k) (Arith.lit 1 : F) = false) {fuel n : Nat} (hf : 0 < fuel) (hn : N < n) (resource : Ptr UInt8) :
    ∃ rows, Importer.Euler.simulate3 Stair.model .built { stair3 with h := h, stopTime := stop } fuel n resource = .ret (.OK, rows) ∧
      (∀ k ≤ N, timeAfter h k ∈ rows.map Row.time) ∧ ∀ row ∈ rows, row.values = [.values .int32 (some [(1 : Int)])] := by
  have hm : Describes (Stair.model : Model F Data) .stair := .stair
  obtain ⟨c, l, hc⟩ := createdME hm rfl resource
  obtain ⟨ht, w₀, vs, ha, ho⟩ := startedME (p := .stair) hm hc trivial (stop := stop)
  have hr : ∀ op ∈ (stair3 : Program F (Op F)).record, Gets (Stair.model : Model F Data) .stair op := fun op h => by
    simp only [stair3, List.mem_singleton] at h; subst h
    exact .get rfl rfl (by simp [Profile.declares, Profile.stair])
  have h0 : isClose (Arith.lit 0 : F) (Arith.lit 1) = false := by simpa [timeAfter] using hmiss 0
  have hmv : c.mv.data.counter = 1 ∧ c.mv.nextEventTime = Arith.lit 1 := by
    cases hc; exact ⟨rfl, rfl⟩
  have hs : Stuck w₀.inst := by
    cases ha with
    | cons e1 ha =>
    cases ha with
    | cons e2 ha =>
    cases ha
    exact stuck_step (stuck_enterInit (w := .fresh c) hmv.1 hmv.2 h0 e1) (by simp [Op.fn]) (by simp [Op.fn]) e2
  obtain ⟨s, e, hE⟩ := Importer.Euler.simulate_succeeds
    ((drivesME hm ht trivial hr (cfg := ⟨0, 0, h, stop, false⟩) (.inl rfl) (.inl rfl)).keeping (R := fun w => Stuck w.inst)
      (P := fun vs => vs = [.values .int32 (some [(1 : Int)])]) rfl rfl stuck_update
      (fun h e => by obtain ⟨⟨w1, s1, o1⟩, e1, e2⟩ := Outcome.bind_eq_ret.1 e; cases e2; exact stuck_step h (by simp [Op.fn]) (by simp [Op.fn]) e1)
      (fun h e => by obtain ⟨⟨w1, s1, o1⟩, e1, e2⟩ := Outcome.bind_eq_ret.1 e; cases e2; exact stuck_step h (by simp [Op.fn]) (by simp [Op.fn]) e1)
      (fun {w w' k} h e => by
        obtain ⟨⟨w1, s1, o1⟩, e1, e2⟩ := Outcome.bind_eq_ret.1 e; cases e2; exact stuck_setTime h.counter h.next (hmiss k) e1)
      (fun h e => by
        obtain ⟨⟨w1, s1, o1⟩, e1, e2⟩ := Outcome.bind_eq_ret.1 e
        have e3 := Prod.mk.inj (Outcome.ret.inj e2)
        obtain rfl := e3.1
        exact stuck_step h (by simp [Op.fn]) (by simp [Op.fn]) e1)
      fun {w w' vs} h e => by
        have h1 := calls_allOK e
        have h2 := stair_recorded h1
        rw [h.counter] at h2
        refine ⟨?_, h2⟩
        simp only [stair3] at h1
        cases h1 with
        | cons e1 h1 => cases h1; exact stuck_step h (by simp [Op.fn]) (by simp [Op.fn]) e1) hf hN hstop ⟨ho, hs⟩ hn
  obtain ⟨w', v', et⟩ := hE.mode
  obtain ⟨k, hk, hcov, hend⟩ := hE.rows
  have hk' : k = N + 1 := hend.resolve_right fun h => by rw [h.1.2] at h; cases h.2
  subst hk'
  refine ⟨s.w.rows, ?_, fun k hk => hcov.mem k (by omega), hE.values⟩
  unfold Importer.Euler.simulate3
  rw [hc]
  simp only []
  rw [CALLS_ok (api := api3 Stair.model 0 h) ha]
  show (Importer.Euler.simulate _ ⟨0, 0, h, stop, false⟩ _ _ _ >>- _) = _
  rw [e]
  simp only [Outcome.ret_bind, Bool.false_eq_true, if_false, hE.status]
  exact tearDown_ok (api := api3 Stair.model 0 h) et

/-- With the step size 0.7 the counter is still 1 at the time 9.8. -/
example (resource : Ptr UInt8) : ∃ rows, Importer.Euler.simulate3 (Stair.model : Model XRat Data) .built
      { stair3 with h := XRat.fin (7 / 10), stopTime := XRat.fin (49 / 5) } 1 15 resource = .ret (.OK, rows) ∧
    (∀ k ≤ 14, timeAfter (XRat.fin (7 / 10)) k ∈ rows.map Row.time) ∧ ∀ row ∈ rows, row.values = [.values .int32 (some [(1 : Int)])] :=
  C92_violated_step (N := 14) (by decide) (by decide +kernel) missed_seven (by decide) (by decide) resource

end FMI3
end Verif
