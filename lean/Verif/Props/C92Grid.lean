import Verif.Lemmas.StairClimb
import Verif.Props.C92ME

/-!
# C92 for the Model Exchange programs whose steps meet the whole seconds
-/

set_option linter.unusedSectionVars false

namespace Verif
open Importer.CoSim Stair

/-- With exact arithmetic, steps of `p / q` seconds miss the first event if `p` does not divide `q`. -/
theorem missed_fraction {p q : Nat} (hp : ¬ p ∣ q) (h0 : 0 < q) (hq : q < 50000) (k : Nat) :
    isClose (timeAfter (XRat.fin ((p : Rat) / q)) k) (Arith.lit 1 : XRat) = false := by
  rw [timeAfter_eq, zero_add]
  show isClose (XRat.fin _) (XRat.fin 1) = false
  rw [isClose_fin_false]
  have hq0 : (0 : Rat) < q := by exact_mod_cast h0
  have hq1 : (q : Rat) < 50000 := by exact_mod_cast hq
  have ht : (k : Rat) * ((p : Rat) / q) = ((k * p : Nat) : Rat) / q := by push_cast; ring
  rw [ht]
  have hne : k * p ≠ q := fun h => hp ⟨k, by rw [Nat.mul_comm]; exact h.symm⟩
  have hx : (0 : Rat) ≤ ((k * p : Nat) : Rat) / q := div_nonneg (Nat.cast_nonneg _) hq0.le
  have hinv : (1 : Rat) / 50000 < 1 / q := one_div_lt_one_div_of_lt hq0 hq1
  unfold Close tol
  rcases Nat.lt_or_gt_of_ne hne with h | h
  · have h1 : ((k * p : Nat) : Rat) / q ≤ 1 - 1 / q := by
      rw [div_le_iff₀ hq0, sub_mul, one_div_mul_cancel hq0.ne', one_mul, le_sub_iff_add_le]
      exact_mod_cast h
    rw [abs_of_nonpos (by linarith), abs_of_nonneg hx, abs_of_pos one_pos, max_eq_right (by linarith)]
    rintro (h3 | h3) <;> linarith
  · have h1 : 1 + 1 / (q : Rat) ≤ ((k * p : Nat) : Rat) / q := by
      rw [le_div_iff₀ hq0, add_mul, one_div_mul_cancel hq0.ne', one_mul]
      exact_mod_cast h
    rw [abs_of_nonneg (by linarith), abs_of_nonneg hx, abs_of_pos one_pos, max_eq_left (by linarith)]
    rintro (h3 | h3) <;> linarith

/-- The stop time is the time of the step `N`. -/
theorem stops_at {h : Rat} (h0 : 0 < h) {N k : Nat} (hk : k ≤ N) : (XRat.fin ((N : Rat) * h) <=. timeAfter (XRat.fin h) k) = decide (k = N) := by
  rw [timeAfter_eq, zero_add, XRat.le_fin, decide_eq_decide, mul_le_mul_iff_left₀ h0, Nat.cast_le]
  omega

namespace FMI2

/-- **C92**, Model Exchange, FMI 2.0, exact arithmetic, if a second takes a whole number of steps: the program records one row for every step and a second one after
the event of every whole second; the rows show the stair before and the stair after the event. Partial, since at 9 seconds, where the counter reaches 10, only the
row before the event is recorded, and the simulation ends. -/
theorem C92_me_partial {m N : Nat} (hm : 0 < m) (hN : N < 2 ^ 64) {fuel n : Nat} (hf : 0 < fuel) (hn : N < n) (resource : Ptr UInt8) :
    Importer.Euler.simulate2 Stair.model .built { stair2 with h := XRat.fin (1 / (m : Rat)), stopTime := XRat.fin ((N : Rat) / m) } fuel n resource =
      .ret (.OK, (List.range (min N (9 * m) + 1)).flatMap fun (k : Nat) => (stairsAt m k).map fun (i : Nat) =>
        ⟨XRat.fin ((k : Rat) / m), [.ints (some [(i : Int)])]⟩) := by
  have hd : Describes (Stair.model : Model XRat Data) .stair := .stair
  obtain ⟨c, l, hc⟩ := createdME hd resource
  obtain ⟨w₀, vs, ha, ho⟩ := startedME (p := .stair) hd hc trivial (stop := XRat.fin ((N : Rat) / m))
  have hc' : createModelInstance (Stair.model : Model XRat Data) false true false (some "instance1")
    (some (Stair.model : Model XRat Data).token) resource false true .modelExchange = (some c, l) := hc
  have ht : c.ctx.typ = .modelExchange := (createModelInstance_ctx hc').1
  have hr : ∀ op ∈ (stair2 : Program XRat (Op XRat)).record, Gets (Stair.model : Model XRat Data) .stair op := fun op h => by
    simp only [stair2, List.mem_singleton] at h; subst h
    exact .getInteger rfl rfl (by simp [Profile.declares, Profile.stair])
  have hs : OnStair 1 0 w₀.inst := by
    cases hc
    cases ha with
    | cons e1 ha =>
    cases ha with
    | cons e2 ha =>
    cases ha with
    | cons e3 ha =>
    cases ha
    exact clock_step (clock_step (clock_setup (t := 0) (t' := 0) ⟨rfl, rfl, rfl, rfl⟩ e1) (by simp [Op.fn]) e2) (by simp [Op.fn]) e3
  obtain ⟨s, e, hE⟩ := Importer.Euler.Climbs.simulate (m := m) (N := N) (f2 := true)
    ((drivesME hd ht trivial hr (cfg := ⟨0, 0, XRat.fin (1 / (m : Rat)), XRat.fin ((N : Rat) / m), true⟩) (.inl rfl) (.inl rfl)).climbing
      (R := fun c t w => OnStair c t w.inst) (out := fun i => [.ints (some [(i : Int)])]) (setTimeME hd ht trivial) clock_update
      (fun h e => by obtain ⟨⟨w1, s1, o1⟩, e1, e2⟩ := Outcome.bind_eq_ret.1 e; cases e2; exact clock_step h (by simp [Op.fn]) e1)
      (fun h e => by obtain ⟨⟨w1, s1, o1⟩, e1, e2⟩ := Outcome.bind_eq_ret.1 e; cases e2; exact clock_step h (by simp [Op.fn]) e1)
      (fun h e => by obtain ⟨⟨w1, s1, o1⟩, e1, e2⟩ := Outcome.bind_eq_ret.1 e; cases e2; exact clock_setTime h e1)
      (fun h e => by
        obtain ⟨⟨w1, s1, o1⟩, e1, e2⟩ := Outcome.bind_eq_ret.1 e
        have e3 := Prod.mk.inj (Outcome.ret.inj e2)
        obtain rfl := e3.1
        exact clock_step h (by simp [Op.fn]) e1)
      fun {c t w w' vs} h e => by
        have h1 := calls_allOK e
        have h2 := stair_recorded h1
        rw [h.counter] at h2
        refine ⟨?_, h2⟩
        simp only [stair2] at h1
        cases h1 with
        | cons e1 h1 => cases h1; exact clock_step h (by simp [Op.fn]) e1) hm hN hf ⟨ho, hs⟩ hn
  obtain ⟨w', v', et⟩ := hE.mode
  unfold Importer.Euler.simulate2
  rw [hc]
  simp only []
  rw [CALLS_ok (api := api2 Stair.model 0 (XRat.fin (1 / (m : Rat)))) ha]
  show (Importer.Euler.simulate _ ⟨0, 0, XRat.fin (1 / (m : Rat)), XRat.fin ((N : Rat) / m), true⟩ _ _ _ >>- _) = _
  rw [e]
  simp only [Outcome.ret_bind, Bool.false_eq_true, if_false, hE.status]
  rw [tearDown_ok (api := api2 Stair.model 0 (XRat.fin (1 / (m : Rat)))) et, hE.rows]
  rfl

/-- The program with half the step size. -/
example (resource : Ptr UInt8) :
    Importer.Euler.simulate2 Stair.model .built { stair2 with h := XRat.fin (1 / ((10 : Nat) : Rat)), stopTime := XRat.fin (((25 : Nat) : Rat) / ((10 : Nat) : Rat)) } 1 26 resource =
      .ret (.OK, (List.range 26).flatMap fun (k : Nat) => (stairsAt 10 k).map fun (i : Nat) => ⟨XRat.fin ((k : Rat) / (10 : Nat)), [.ints (some [(i : Int)])]⟩) :=
  C92_me_partial (m := 10) (N := 25) (by decide) (by decide) (by decide) (by decide) resource

/-- **C92 is violated** by the program for Model Exchange, FMI 2.0, for all other step sizes that are fractions of a second, the `p / q`-th part where `p` does not
divide `q`: there are rows for all times up to the stop time, and all of them show the counter 1. With `C92_me_partial`, which is about the step sizes `p / q = 1 / m`,
the rows are known for every step size that is a fraction with a denominator below 50000. -/
theorem C92_violated_fraction {p q N : Nat} (hp : ¬ p ∣ q) (hp0 : 0 < p) (hq0 : 0 < q) (hq : q < 50000) (hN : N < 2 ^ 64) {fuel n : Nat} (hf : 0 < fuel) (hn : N < n)
    (resource : Ptr UInt8) :
    ∃ rows, Importer.Euler.simulate2 Stair.model .built { stair2 with h := XRat.fin ((p : Rat) / q), stopTime := XRat.fin ((N : Rat) * ((p : Rat) / q)) } fuel n resource =
        .ret (.OK, rows) ∧
      (∀ k ≤ N, timeAfter (XRat.fin ((p : Rat) / q)) k ∈ rows.map Row.time) ∧ ∀ row ∈ rows, row.values = [.ints (some [1])] :=
  C92_violated_step hN (fun _ hk => stops_at (div_pos (by exact_mod_cast hp0) (by exact_mod_cast hq0)) hk) (missed_fraction hp hq0 hq) hf hn resource

/-- Steps of 0.3 seconds. -/
example (resource : Ptr UInt8) : ∃ rows,
    Importer.Euler.simulate2 Stair.model .built
      { stair2 with h := XRat.fin (((3 : Nat) : Rat) / ((10 : Nat) : Rat)), stopTime := XRat.fin (((30 : Nat) : Rat) * (((3 : Nat) : Rat) / ((10 : Nat) : Rat))) } 1 31 resource = .ret (.OK, rows) ∧
    (∀ k ≤ 30, timeAfter (XRat.fin (((3 : Nat) : Rat) / ((10 : Nat) : Rat))) k ∈ rows.map Row.time) ∧ ∀ row ∈ rows, row.values = [.ints (some [1])] :=
  C92_violated_fraction (p := 3) (q := 10) (N := 30) (by decide) (by decide) (by decide) (by decide) (by decide) (by decide) (by decide) resource

end FMI2

/-- At one second the counters 1 and 2 are shown, at 2.5 seconds the counter 3, at 9 seconds the counter 9. -/
example : stairsAt 10 10 = [1, 2] ∧ stairsAt 10 25 = [3] ∧ stairsAt 10 90 = [9] := by decide

namespace FMI3

/-- **C92**, Model Exchange, FMI 3.0, exact arithmetic, if a second takes a whole number of steps, as with FMI 2.0. Partial, since the row for the counter 10 is not
recorded. -/
theorem C92_me_partial {m N : Nat} (hm : 0 < m) (hN : N < 2 ^ 64) {fuel n : Nat} (hf : 0 < fuel) (hn : N < n) (resource : Ptr UInt8) :
    Importer.Euler.simulate3 Stair.model .built { stair3 with h := XRat.fin (1 / (m : Rat)), stopTime := XRat.fin ((N : Rat) / m) } fuel n resource =
      .ret (.OK, (List.range (min N (9 * m) + 1)).flatMap fun (k : Nat) => (stairsAt m k).map fun (i : Nat) =>
        ⟨XRat.fin ((k : Rat) / m), [.values .int32 (some [(i : Int)])]⟩) := by
  have hd : Describes (Stair.model : Model XRat Data) .stair := .stair
  obtain ⟨c, l, hc⟩ := createdME hd rfl resource
  obtain ⟨ht, w₀, vs, ha, ho⟩ := startedME (p := .stair) hd hc trivial (stop := XRat.fin ((N : Rat) / m))
  have hr : ∀ op ∈ (stair3 : Program XRat (Op XRat)).record, Gets (Stair.model : Model XRat Data) .stair op := fun op h => by
    simp only [stair3, List.mem_singleton] at h; subst h
    exact .get rfl rfl (by simp [Profile.declares, Profile.stair])
  have hs : OnStair 1 0 w₀.inst := by
    have h0 : OnStair 1 0 c := by cases hc; exact ⟨rfl, rfl, rfl, rfl⟩
    cases ha with
    | cons e1 ha =>
    cases ha with
    | cons e2 ha =>
    cases ha
    exact clock_step (clock_enterInit (w := .fresh c) (t := 0) (t' := 0) h0 e1) (by simp [Op.fn]) (by simp [Op.fn]) e2
  obtain ⟨s, e, hE⟩ := Importer.Euler.Climbs.simulate (m := m) (N := N) (f2 := false)
    ((drivesME hd ht trivial hr (cfg := ⟨0, 0, XRat.fin (1 / (m : Rat)), XRat.fin ((N : Rat) / m), false⟩) (.inl rfl) (.inl rfl)).climbing
      (R := fun c t w => OnStair c t w.inst) (out := fun i => [.values .int32 (some [(i : Int)])]) (setTimeME hd ht trivial) clock_update
      (fun h e => by obtain ⟨⟨w1, s1, o1⟩, e1, e2⟩ := Outcome.bind_eq_ret.1 e; cases e2; exact clock_step h (by simp [Op.fn]) (by simp [Op.fn]) e1)
      (fun h e => by obtain ⟨⟨w1, s1, o1⟩, e1, e2⟩ := Outcome.bind_eq_ret.1 e; cases e2; exact clock_step h (by simp [Op.fn]) (by simp [Op.fn]) e1)
      (fun h e => by obtain ⟨⟨w1, s1, o1⟩, e1, e2⟩ := Outcome.bind_eq_ret.1 e; cases e2; exact clock_setTime h e1)
      (fun h e => by
        obtain ⟨⟨w1, s1, o1⟩, e1, e2⟩ := Outcome.bind_eq_ret.1 e
        have e3 := Prod.mk.inj (Outcome.ret.inj e2)
        obtain rfl := e3.1
        exact clock_step h (by simp [Op.fn]) (by simp [Op.fn]) e1)
      fun {c t w w' vs} h e => by
        have h1 := calls_allOK e
        have h2 := stair_recorded h1
        rw [h.counter] at h2
        refine ⟨?_, h2⟩
        simp only [stair3] at h1
        cases h1 with
        | cons e1 h1 => cases h1; exact clock_step h (by simp [Op.fn]) (by simp [Op.fn]) e1) hm hN hf ⟨ho, hs⟩ hn
  obtain ⟨w', v', et⟩ := hE.mode
  unfold Importer.Euler.simulate3
  rw [hc]
  simp only []
  rw [CALLS_ok (api := api3 Stair.model 0 (XRat.fin (1 / (m : Rat)))) ha]
  show (Importer.Euler.simulate _ ⟨0, 0, XRat.fin (1 / (m : Rat)), XRat.fin ((N : Rat) / m), false⟩ _ _ _ >>- _) = _
  rw [e]
  simp only [Outcome.ret_bind, Bool.false_eq_true, if_false, hE.status]
  rw [tearDown_ok (api := api3 Stair.model 0 (XRat.fin (1 / (m : Rat)))) et, hE.rows]
  rfl

/-- The program with half the step size. -/
example (resource : Ptr UInt8) :
    Importer.Euler.simulate3 Stair.model .built { stair3 with h := XRat.fin (1 / ((10 : Nat) : Rat)), stopTime := XRat.fin (((25 : Nat) : Rat) / ((10 : Nat) : Rat)) } 1 26 resource =
      .ret (.OK, (List.range 26).flatMap fun (k : Nat) => (stairsAt 10 k).map fun (i : Nat) =>
        ⟨XRat.fin ((k : Rat) / (10 : Nat)), [.values .int32 (some [(i : Int)])]⟩) :=
  C92_me_partial (m := 10) (N := 25) (by decide) (by decide) (by decide) (by decide) resource

/-- **C92 is violated** by the program for Model Exchange, FMI 3.0, for all other step sizes that are fractions of a second, the `p / q`-th part where `p` does not
divide `q`: there are rows for all times up to the stop time, and all of them show the counter 1. With `C92_me_partial`, which is about the step sizes `p / q = 1 / m`,
the rows are known for every step size that is a fraction with a denominator below 50000. -/
theorem C92_violated_fraction {p q N : Nat} (hp : ¬ p ∣ q) (hp0 : 0 < p) (hq0 : 0 < q) (hq : q < 50000) (hN : N < 2 ^ 64) {fuel n : Nat} (hf : 0 < fuel) (hn : N < n)
    (resource : Ptr UInt8) :
    ∃ rows, Importer.Euler.simulate3 Stair.model .built { stair3 with h := XRat.fin ((p : Rat) / q), stopTime := XRat.fin ((N : Rat) * ((p : Rat) / q)) } fuel n resource =
        .ret (.OK, rows) ∧
      (∀ k ≤ N, timeAfter (XRat.fin ((p : Rat) / q)) k ∈ rows.map Row.time) ∧ ∀ row ∈ rows, row.values = [.values .int32 (some [(1 : Int)])] :=
  C92_violated_step hN (fun _ hk => stops_at (div_pos (by exact_mod_cast hp0) (by exact_mod_cast hq0)) hk) (missed_fraction hp hq0 hq) hf hn resource

/-- Steps of 0.3 seconds. -/
example (resource : Ptr UInt8) : ∃ rows,
    Importer.Euler.simulate3 Stair.model .built
      { stair3 with h := XRat.fin (((3 : Nat) : Rat) / ((10 : Nat) : Rat)), stopTime := XRat.fin (((30 : Nat) : Rat) * (((3 : Nat) : Rat) / ((10 : Nat) : Rat))) } 1 31 resource = .ret (.OK, rows) ∧
    (∀ k ≤ 30, timeAfter (XRat.fin (((3 : Nat) : Rat) / ((10 : Nat) : Rat))) k ∈ rows.map Row.time) ∧ ∀ row ∈ rows, row.values = [.values .int32 (some [(1 : Int)])] :=
  C92_violated_fraction (p := 3) (q := 10) (N := 30) (by decide) (by decide) (by decide) (by decide) (by decide) (by decide) (by decide) resource

end FMI3
end Verif
