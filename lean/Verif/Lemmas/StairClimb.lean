import Verif.Lemmas.StairStuck
import Mathlib.Tactic.Linarith

/-!
# The Model Exchange programs for the Stair FMU when they meet the time events
-/

set_option linter.unusedSectionVars false

namespace Verif.Importer.Euler
open Verif CoSim

variable {W V : Type}

/-- What is needed of the API: `E c t` and `C c t` hold in Event Mode and in Continuous-Time Mode if the counter is `c` and the time is `t`, `T` if the
instance can be terminated; `out c` are the recorded values. -/
structure Climbs (api : Api XRat W) (record : W → Outcome (W × Status × List V)) (E C : Nat → Rat → W → Prop) (T : W → Prop) (out : Nat → List V) : Prop where
  update : ∀ {w i} {c c' : Nat} {t : Rat}, (Close t c ∧ c' = c + 1) ∨ (¬ Close t c ∧ c' = c) → c < 10 → E c t w →
    ∃ w' i', api.update w i = .ret (w', .OK, i') ∧ i'.newDiscreteStatesNeeded = false ∧ i'.terminateSimulation = decide (10 ≤ c') ∧
      i'.nextEventTimeDefined = true ∧ i'.nextEventTime = .fin c' ∧ T w' ∧ (c' < 10 → E c' t w')
  enterCT : ∀ {w c t}, E c t w → ∃ w', api.enterContinuousTimeMode w = .ret (w', .OK, ()) ∧ C c t w'
  enterEM : ∀ {w c t}, C c t w → ∃ w', api.enterEventMode w = .ret (w', .OK, ()) ∧ E c t w'
  setTime : ∀ {w c t t'}, C c t w → ∃ w', api.setTime w (.fin t') = .ret (w', .OK, ()) ∧ C c t' w'
  completed : ∀ {w c t a b}, C c t w → ∃ w', api.completed w a b = .ret (w', .OK, (false, false)) ∧ C c t w'
  record : ∀ {w c t}, C c t w → ∃ w', record w = .ret (w', .OK, out c) ∧ C c t w'
  stop : ∀ {w c t}, C c t w → T w

/-- The program is at the step `k`, and the next event is at `c`. -/
structure Here (M : W → Prop) (m k c : Nat) (rows : List (Row XRat V)) (s : Sim XRat (Run XRat W V)) : Prop where
  mode : M s.w.w
  status : s.w.status = .OK
  wtime : s.w.time = .fin ((k : Rat) / m)
  time : s.time = .fin ((k : Rat) / m)
  step : s.step = k
  rows : s.w.rows = rows
  flags : s.stepEvent = false ∧ s.stateEvent = false
  info : s.info.terminateSimulation = false ∧ s.info.nextEventTimeDefined = true ∧ s.info.nextEventTime = .fin c

/-- The rows of the step `k`. -/
def stairRows (out : Nat → List V) (m k : Nat) : List (Row XRat V) := (stairsAt m k).map fun i => ⟨.fin ((k : Rat) / m), out i⟩

section
variable {api : Api XRat W} {record : W → Outcome (W × Status × List V)} {E C : Nat → Rat → W → Prop} {T : W → Prop} {out : Nat → List V}
  {m N fuel : Nat} {f2 : Bool}

/-- The program has ended. -/
structure Climbed (T : W → Prop) (out : Nat → List V) (m N : Nat) (s : Sim XRat (Run XRat W V)) : Prop where
  rows : s.w.rows = (List.range (min N (9 * m) + 1)).flatMap (stairRows out m)
  status : s.w.status = .OK
  mode : T s.w.w

/-- The beginning of the pass `k`. -/
structure AtSecond (C : Nat → Rat → W → Prop) (out : Nat → List V) (m N k : Nat) (s : Sim XRat (Run XRat W V)) : Prop where
  upto : k ≤ N
  early : k ≤ 9 * m
  here : Here (C ((k - 1) / m + 1) ((k : Rat) / m)) m k ((k - 1) / m + 1)
    ((List.range k).flatMap (stairRows out m) ++ [⟨.fin ((k : Rat) / m), out ((k - 1) / m + 1)⟩]) s

theorem Climbs.recorded (D : Climbs api record E C T out) {Q : Bool → Sim XRat (Run XRat W V) → Prop} {s : Sim XRat (Run XRat W V)} {k c n : Nat} {t : Rat}
    {rows : List (Row XRat V)} {g : Sim XRat (Run XRat W V) → Unit → Result XRat (Run XRat W V)} (h : Here (C c t) m k n rows s)
    (hk : ∀ w : Run XRat W V, Here (C c t) m k n (rows ++ [⟨.fin ((k : Rat) / m), out c⟩]) { s with w := w } → Succeeds (g { s with w := w } ()) Q) :
    Succeeds (CALL s ((watch api record).record s.w) g) Q := by
  obtain ⟨w, e, hC⟩ := D.record h.mode
  have hg := hk { s.w with w := w, status := .OK, rows := s.w.rows ++ [⟨s.w.time, out c⟩] }
    ⟨hC, rfl, h.wtime, h.time, h.step, by simp [h.rows, h.wtime], h.flags, h.info⟩
  simp only [CALL, watch, e, Outcome.ret_bind, if_true]
  exact hg

theorem Climbs.rest (D : Climbs api record E C T out) (hm : 0 < m) (hN : N < 2 ^ 64) {k : Nat} (hk : k ≤ N) (h9 : k < 9 * m) {b : Bool} {s : Sim XRat (Run XRat W V)}
    (h : Here (C (k / m + 1) ((k : Rat) / m)) m k (k / m + 1) ((List.range (k + 1)).flatMap (stairRows out m)) s) :
    Succeeds (if (XRat.fin ((N : Rat) / m)) <=. s.time then .ret (false, s)
      else advance (watch api record) ⟨0, 0, .fin (1 / (m : Rat)), .fin ((N : Rat) / m), f2⟩ b s) fun b s =>
      if b then AtSecond C out m N (k + 1) s else Climbed T out m N s := by
  have hm' : (0 : Rat) < m := by exact_mod_cast hm
  rw [h.time, XRat.le_fin]
  by_cases hkN : k = N
  · subst hkN
    rw [if_pos (by simp)]
    refine .ret ?_
    rw [if_neg (by simp)]
    exact ⟨by rw [Nat.min_eq_left (by omega)]; exact h.rows, h.status, D.stop h.mode⟩
  · rw [if_neg (by
      rw [decide_eq_true_eq, not_le]
      exact div_lt_div_of_pos_right (by exact_mod_cast (by omega : k < N)) hm')]
    unfold advance
    simp only [gt_iff_lt, Nat.lt_irrefl, if_false]
    have ht : (Arith.lit ((((s.step + 1) % 2 ^ 64 : Nat)) : Rat) : XRat) *. XRat.fin (1 / (m : Rat)) = .fin (((k + 1 : Nat) : Rat) / m) := by
      rw [h.step, Nat.mod_eq_of_lt (by omega), XRat.lit_eq, XRat.mul_fin, mul_one_div]
    rw [ht]
    obtain ⟨w, e, hC⟩ := D.setTime (t' := ((k + 1 : Nat) : Rat) / m) h.mode
    refine succeeds_setTime e ?_
    unfold detect
    simp only [gt_iff_lt, Nat.lt_irrefl, if_false]
    unfold finish
    obtain ⟨w', e', hC'⟩ := D.completed (a := s.stepEvent) (b := s.info.terminateSimulation) hC
    refine Succeeds.call e' ?_
    simp only [Bool.and_false, Bool.false_eq_true, if_false]
    refine D.recorded (m := m) (k := k + 1) (c := k / m + 1) (n := k / m + 1) (t := ((k + 1 : Nat) : Rat) / m) (rows := (List.range (k + 1)).flatMap (stairRows out m)) ?_ ?_
    · exact ⟨hC', rfl, rfl, rfl, by show (s.step + 1) % 2 ^ 64 = k + 1; rw [h.step, Nat.mod_eq_of_lt (by omega)], h.rows, ⟨rfl, h.flags.2⟩, ⟨rfl, h.info.2⟩⟩
    · intro w h'
      refine .ret ?_
      rw [if_pos rfl]
      exact ⟨by omega, by omega, h'⟩

theorem second_iff (hm : 0 < m) (k : Nat) : (((k - 1) / m + 1 : Nat) : Rat) ≤ (k : Rat) / m ↔ m ∣ k ∧ 0 < k := by
  have hm' : (0 : Rat) < m := by exact_mod_cast hm
  rw [le_div_iff₀ hm']
  have : (((k - 1) / m + 1 : Nat) : Rat) * m ≤ k ↔ ((k - 1) / m + 1) * m ≤ k := by exact_mod_cast Iff.rfl
  rw [this]
  have hd := Nat.div_add_mod (k - 1) m
  have hl := Nat.mod_lt (k - 1) hm
  rw [Nat.add_mul, Nat.one_mul, Nat.mul_comm]
  constructor
  · intro h
    have hk : 0 < k := by omega
    refine ⟨⟨(k - 1) / m + 1, ?_⟩, hk⟩
    rw [Nat.mul_add, Nat.mul_one]
    omega
  · rintro ⟨⟨q, rfl⟩, hk⟩
    obtain ⟨q, rfl⟩ : ∃ p, q = p + 1 := ⟨q - 1, by rcases q with _ | q <;> simp at hk ⊢⟩
    have : (m * (q + 1) - 1) / m = q := by
      have h1 : m * (q + 1) = m * q + m := by rw [Nat.mul_add, Nat.mul_one]
      exact Nat.div_eq_of_lt_le (by rw [Nat.mul_comm q]; omega) (by rw [Nat.mul_comm (q + 1)]; omega)
    rw [this, Nat.mul_add, Nat.mul_one]

theorem before_second (hm : 0 < m) {k : Nat} (h : m ∣ k ∧ 0 < k) : (k - 1) / m + 1 = k / m := by
  obtain ⟨⟨q, rfl⟩, hk⟩ := h
  obtain ⟨q, rfl⟩ : ∃ p, q = p + 1 := ⟨q - 1, by rcases q with _ | q <;> simp at hk ⊢⟩
  rw [Nat.mul_div_cancel_left _ hm]
  congr 1
  have h1 : m * (q + 1) = m * q + m := by rw [Nat.mul_add, Nat.mul_one]
  exact Nat.div_eq_of_lt_le (by rw [Nat.mul_comm q]; omega) (by rw [Nat.mul_comm (q + 1)]; omega)

theorem within_second (hm : 0 < m) {k : Nat} (h : ¬ (m ∣ k ∧ 0 < k)) : (k - 1) / m + 1 = k / m + 1 := by
  rcases Nat.eq_zero_or_pos k with rfl | hk
  · simp
  · have hd := Nat.div_add_mod k m
    have hl := Nat.mod_lt k hm
    have h0 : k % m ≠ 0 := fun h0 => h ⟨Nat.dvd_of_mod_eq_zero h0, hk⟩
    congr 1
    have h1 : m * (k / m + 1) = m * (k / m) + m := by rw [Nat.mul_add, Nat.mul_one]
    exact Nat.div_eq_of_lt_le (by rw [Nat.mul_comm (k / m)]; omega) (by rw [Nat.mul_comm (k / m + 1)]; omega)

theorem Climbs.pass (D : Climbs api record E C T out) (hm : 0 < m) (hN : N < 2 ^ 64) (hf : 0 < fuel) {k : Nat} {s : Sim XRat (Run XRat W V)} (h : AtSecond C out m N k s) :
    Succeeds (pass (watch api record) ⟨0, 0, .fin (1 / (m : Rat)), .fin ((N : Rat) / m), f2⟩ fuel s) fun b s =>
      if b then AtSecond C out m N (k + 1) s else Climbed T out m N s := by
  obtain ⟨hkN, hk9, h⟩ := h
  obtain ⟨f, rfl⟩ : ∃ f, fuel = f + 1 := ⟨fuel - 1, by omega⟩
  have hm' : (m : Rat) ≠ 0 := by exact_mod_cast hm.ne'
  unfold Euler.pass
  rw [h.info.1, if_neg (by simp)]
  have ho : eventOccurred s = decide (m ∣ k ∧ 0 < k) := by
    unfold eventOccurred
    rw [h.flags.1, h.flags.2, h.info.2.1, h.info.2.2, h.time, XRat.le_fin, Bool.true_and, Bool.or_false, Bool.or_false]
    rw [show ((HasInf.inf : XRat) <=. XRat.fin ((k : Rat) / m)) = false from rfl, Bool.false_or, decide_eq_decide]
    exact second_iff hm k
  simp only [ho]
  by_cases hk : m ∣ k ∧ 0 < k
  · rw [if_pos (by simpa using hk)]
    unfold handle
    obtain ⟨w, e, hE⟩ := D.enterEM h.mode
    refine Succeeds.call e ?_
    unfold iterate
    have hb := before_second hm hk
    have hdiv : ((k / m : Nat) : Rat) = (k : Rat) / m := by
      obtain ⟨⟨q, rfl⟩, -⟩ := hk
      rw [Nat.mul_div_cancel_left _ hm, Nat.cast_mul, mul_div_cancel_left₀ _ hm']
    have hq : k / m ≤ 9 := by
      refine (Nat.div_le_div_right hk9).trans ?_
      rw [Nat.mul_div_cancel _ hm]
    rw [hb] at hE h
    obtain ⟨w1, i1, e1, h1, h2, h3, h4, h5, h6⟩ := D.update (i := s.info) (c' := k / m + 1) (.inl ⟨by rw [hdiv]; unfold Close; left; simp [tol], rfl⟩) (by omega) hE
    refine Succeeds.call e1 ?_
    simp only []
    rw [h2]
    by_cases hend : k = 9 * m
    · have : k / m = 9 := by rw [hend, Nat.mul_div_cancel _ hm]
      rw [if_pos (by rw [this]; decide)]
      refine .ret ?_
      rw [if_neg (by simp)]
      refine ⟨?_, rfl, h5⟩
      show s.w.rows = _
      rw [h.rows, Nat.min_eq_right (by omega), ← hend, List.range_succ, List.flatMap_append]
      congr 1
      simp [stairRows, stairsAt, hend, hm]
    · have hlt : k / m < 9 := by
        rw [Nat.div_lt_iff_lt_mul hm]; omega
      rw [if_neg (by simp; omega), h1, if_neg (by simp)]
      obtain ⟨w2, e2, hC⟩ := D.enterCT (h6 (by omega))
      refine Succeeds.call e2 ?_
      refine D.recorded (m := m) (k := k) (c := k / m + 1) (n := k / m + 1) (t := (k : Rat) / m)
        (rows := (List.range k).flatMap (stairRows out m) ++ [⟨.fin ((k : Rat) / m), out (k / m)⟩]) ?_ ?_
      · exact ⟨hC, rfl, h.wtime, h.time, h.step, h.rows, h.flags, ⟨by rw [h2]; simp; omega, h3, h4⟩⟩
      · intro w h'
        simp only [gt_iff_lt, Nat.lt_irrefl, decide_false, Bool.false_and, Bool.false_eq_true, if_false]
        refine D.rest hm hN hkN (by omega) ⟨h'.mode, h'.status, h'.wtime, h'.time, h'.step, ?_, h'.flags, h'.info⟩
        rw [h'.rows, List.range_succ, List.flatMap_append, List.append_assoc]
        congr 1
        simp [stairRows, stairsAt, if_pos hk, if_pos (show k < 9 * m by omega)]
  · rw [if_neg (by simpa using hk)]
    have hw := within_second hm hk
    have hlt : k < 9 * m := by
      rcases Nat.lt_or_ge k (9 * m) with h | h
      · exact h
      · exact absurd ⟨⟨9, by rw [Nat.mul_comm]; omega⟩, by omega⟩ hk
    rw [hw] at h
    refine D.rest hm hN hkN hlt ⟨h.mode, h.status, h.wtime, h.time, h.step, ?_, h.flags, h.info⟩
    rw [h.rows, List.range_succ, List.flatMap_append]
    congr 1
    simp [stairRows, stairsAt, if_neg hk, if_pos hlt]

theorem Climbs.passes (D : Climbs api record E C T out) (hm : 0 < m) (hN : N < 2 ^ 64) (hf : 0 < fuel) {s : Sim XRat (Run XRat W V)} (h : AtSecond C out m N 0 s) (n : Nat) :
    Succeeds (passes (watch api record) ⟨0, 0, .fin (1 / (m : Rat)), .fin ((N : Rat) / m), f2⟩ fuel n s) fun b s =>
      if b then AtSecond C out m N n s else Climbed T out m N s := by
  induction n with
  | zero => exact .ret (by simpa using h)
  | succ n ih =>
    obtain ⟨b, s1, e, ih⟩ := ih
    unfold Euler.passes
    rw [e]
    simp only [Outcome.ret_bind]
    cases b
    · exact .ret (by simpa using ih)
    · simp only [if_true] at ih ⊢
      exact D.pass hm hN hf ih

theorem Climbs.simulate (D : Climbs api record E C T out) (hm : 0 < m) (hN : N < 2 ^ 64) (hf : 0 < fuel) {w : W} (h : E 1 0 w) {n : Nat} (hn : N < n) :
    ∃ s, simulate (watch api record) ⟨0, 0, .fin (1 / (m : Rat)), .fin ((N : Rat) / m), f2⟩ fuel n ⟨w, .OK, Arith.lit 0, []⟩ = .ret (false, s) ∧ Climbed T out m N s := by
  obtain ⟨f, rfl⟩ : ∃ f, fuel = f + 1 := ⟨fuel - 1, by omega⟩
  have hi : Succeeds (initial (watch api record) ⟨0, 0, .fin (1 / (m : Rat)), .fin ((N : Rat) / m), f2⟩ (f + 1)
      (Sim.start ⟨0, 0, .fin (1 / (m : Rat)), .fin ((N : Rat) / m), f2⟩ ⟨w, .OK, Arith.lit 0, []⟩)) fun b s => b = true ∧ AtSecond C out m N 0 s := by
    unfold initial iterate
    obtain ⟨w1, i1, e1, h1, h2, h3, h4, h5, h6⟩ := D.update (i := ⟨false, false, false, false, false, Arith.lit 0⟩) (c := 1) (c' := 1) (t := 0)
      (.inr ⟨by unfold Close tol; norm_num, rfl⟩) (by omega) h
    refine Succeeds.call e1 ?_
    simp only []
    rw [h2, if_neg (by simp), h1, if_neg (by simp)]
    obtain ⟨w2, e2, hC⟩ := D.enterCT (h6 (by omega))
    refine Succeeds.call e2 ?_
    simp only [gt_iff_lt, Nat.lt_irrefl, if_false]
    refine D.recorded (m := m) (k := 0) (c := 1) (n := 1) (t := 0) (rows := []) ?_ ?_
    · exact ⟨hC, rfl, by simp [Sim.start, XRat.lit_eq], by simp [Sim.start, XRat.lit_eq], rfl, rfl, ⟨rfl, rfl⟩, ⟨by rw [h2]; rfl, h3, h4⟩⟩
    · intro w h'
      refine .ret ⟨rfl, Nat.zero_le _, Nat.zero_le _, ?_⟩
      have hd : (0 - 1) / m + 1 = 1 := by simp
      rw [hd, Nat.cast_zero, zero_div]
      exact ⟨h'.mode, h'.status, h'.wtime, h'.time, rfl, by simpa using h'.rows, h'.flags, h'.info⟩
  obtain ⟨b, s1, e, rfl, hp⟩ := hi
  unfold Euler.simulate
  rw [e]
  simp only [Outcome.ret_bind, if_true]
  obtain ⟨b, s2, e2, h2⟩ := D.passes hm hN hf hp n
  cases b
  · exact ⟨s2, e2, by simpa using h2⟩
  · simp only [if_true] at h2
    have := h2.upto
    omega

end
/-- The API of an FMU, if it follows a clock besides the modes. -/
theorem Drives.climbing {api : Api XRat W} {record : W → Outcome (W × Status × List V)} {cfg : Config XRat} {E C T : W → Prop} {J : EventInfo XRat → Prop}
    {R : Nat → Rat → W → Prop} {out : Nat → List V} (H : Drives api record cfg E C T J fun _ => True)
    (time : ∀ {w t}, C w → ∃ w', api.setTime w t = .ret (w', .OK, ()) ∧ C w')
    (update : ∀ {w w' i i'} {c c' : Nat} {t : Rat}, (Close t c ∧ c' = c + 1) ∨ (¬ Close t c ∧ c' = c) → c < 10 → R c t w → api.update w i = .ret (w', .OK, i') →
      (i'.terminateSimulation = decide (10 ≤ c') ∧ i'.nextEventTimeDefined = true ∧ i'.nextEventTime = .fin c') ∧ R c' t w')
    (enterCT : ∀ {c t w w'}, R c t w → api.enterContinuousTimeMode w = .ret (w', .OK, ()) → R c t w')
    (enterEM : ∀ {c t w w'}, R c t w → api.enterEventMode w = .ret (w', .OK, ()) → R c t w')
    (setTime : ∀ {c t t' w w'}, R c t w → api.setTime w (.fin t') = .ret (w', .OK, ()) → R c t' w')
    (completed : ∀ {c t w w' a b x}, R c t w → api.completed w a b = .ret (w', .OK, x) → R c t w')
    (hr : ∀ {c t w w' vs}, R c t w → record w = .ret (w', .OK, vs) → R c t w' ∧ vs = out c) :
    Climbs api record (fun c t w => E w ∧ R c t w) (fun c t w => C w ∧ R c t w) T out where
  update := by
    rintro w i c c' t hc h10 ⟨h, h1⟩
    obtain ⟨w', i', e, a, -, b, f⟩ := H.update (i := i) h
    obtain ⟨⟨k1, k2, k3⟩, k4⟩ := update hc h10 h1 e
    exact ⟨w', i', e, a, k1, k2, k3, b, fun ht => ⟨f (by rw [k1]; simpa using ht), k4⟩⟩
  enterCT := by
    rintro w c t ⟨h, h1⟩
    obtain ⟨w', e, a⟩ := H.enterCT h
    exact ⟨w', e, a, enterCT h1 e⟩
  enterEM := by
    rintro w c t ⟨h, h1⟩
    obtain ⟨w', e, a⟩ := H.enterEM h
    exact ⟨w', e, a, enterEM h1 e⟩
  setTime := by
    rintro w c t t' ⟨h, h1⟩
    obtain ⟨w', e, a⟩ := time (t := .fin t') h
    exact ⟨w', e, a, setTime h1 e⟩
  completed := by
    rintro w c t a b ⟨h, h1⟩
    obtain ⟨w', e, k⟩ := H.completed (a := a) (b := b) h
    exact ⟨w', e, k, completed h1 e⟩
  record := by
    rintro w c t ⟨h, h1⟩
    obtain ⟨w', vs, e, k, -⟩ := H.record h
    obtain ⟨k1, rfl⟩ := hr h1 e
    exact ⟨w', e, k, k1⟩
  stop h := H.stop h.1

end Verif.Importer.Euler

namespace Verif
namespace Stair

/-- The counter is `n`, the next event is at `n`, and the time is `t`. -/
structure OnStair (n : Nat) (t : Rat) (c : Comp XRat Data) : Prop where
  counter : c.mv.data.counter = n
  next : c.mv.nextEventTime = .fin n
  defined : c.mv.nextEventTimeDefined = true
  time : c.ctx.time = .fin t

variable {n : Nat} {t : Rat}

theorem OnStair.of_eq {c c' : Comp XRat Data} (h : OnStair n t c) (h1 : c'.mv.data = c.mv.data) (h2 : c'.mv.nextEventTime = c.mv.nextEventTime)
    (h3 : c'.ctx.time = c.ctx.time) (h4 : c'.mv.nextEventTimeDefined = c.mv.nextEventTimeDefined) : OnStair n t c' :=
  ⟨by rw [h1]; exact h.counter, by rw [h2]; exact h.next, by rw [h4]; exact h.defined, by rw [h3]; exact h.time⟩

theorem clock_event {c : Comp XRat Data} (h : OnStair n t c) (hn : n < 10) {n' : Nat} (hc : (Close t n ∧ n' = n + 1) ∨ (¬ Close t n ∧ n' = n)) {mv' s u}
    (e : eventUpdate c.ctx c.mv = .ret (mv', s, u)) :
    s = .OK ∧ mv'.data.counter = n' ∧ mv'.nextEventTime = .fin n' ∧ mv'.nextEventTimeDefined = true ∧ mv'.terminateSimulation = decide (10 ≤ n') := by
  unfold eventUpdate at e
  rw [h.next, h.defined, h.time, Bool.true_and, h.counter] at e
  rcases hc with ⟨hc, rfl⟩ | ⟨hc, rfl⟩
  · rw [if_pos ((isClose_fin _ _).2 hc), if_neg (by omega)] at e
    simp only [Outcome.ret_bind] at e
    rw [if_neg (by omega)] at e
    cases e
    refine ⟨rfl, by simp, by simp [XRat.lit_eq, XRat.add_fin], rfl, ?_⟩
    rw [decide_eq_decide]
    omega
  · rw [if_neg (by rw [(isClose_fin_false _ _).2 hc]; simp)] at e
    simp only [Outcome.ret_bind, h.counter] at e
    rw [if_neg (by omega)] at e
    cases e
    refine ⟨rfl, h.counter, h.next, rfl, ?_⟩
    rw [decide_eq_decide]
    omega

theorem clock_quiet : Quiet (model : Model XRat Data) (fun f => f ≠ .set ∧ f ≠ .event) (OnStair n t) where
  lift {c f mv' s} h hf e := h.of_eq (step_data hf.1 hf.2 e) ((eff _ _ _ _ _ e).flags hf.2).2.2.2.2 rfl ((eff _ _ _ _ _ e).flags hf.2).2.2.2.1
  log msg h := by
    unfold Comp.logError Verif.logError
    split <;> exact h.of_eq rfl rfl rfl rfl
  dirty b h := h.of_eq rfl rfl rfl rfl

theorem clock_invX2 : FMI2.CallInvX (fun fn => fn ∈ [FMI2.Fn.doStep, .setReal, .setInteger, .setBoolean, .setString, .setFMUstate, .reset, .setTime, .setupExperiment,
    .newDiscreteStates]) (fun f => f ≠ .set ∧ f ≠ .event) (model : Model XRat Data) (fun _ => True) (OnStair n t) where
  toQuiet := clock_quiet
  calls := by
    intro fn hX f hf
    cases fn <;> simp [FMI2.Fn.calls] at hX hf ⊢ <;> first | (subst hf; simp) | (rcases hf with rfl | rfl <;> simp)
  step h := absurd (by simp) h
  nx _ _ h := h.of_eq rfl rfl rfl rfl
  nz _ _ h := h.of_eq rfl rfl rfl rfl
  prez _ _ _ h := h.of_eq rfl rfl rfl rfl
  term h := h.of_eq rfl rfl rfl rfl
  setup h := absurd (by simp) h
  enterInit _ _ h _ := h.of_eq rfl rfl rfl rfl
  reset h := absurd (by simp) h
  restore h := absurd (by simp) h
  enterEvent _ _ h _ := h.of_eq rfl rfl rfl rfl
  enterCT _ _ h _ := h.of_eq rfl rfl rfl rfl
  setTime h := absurd (by simp) h
  exitInit _ _ h _ := h.of_eq rfl rfl rfl rfl

theorem clock_invX3 : FMI3.CallInvX (fun fn => (∃ t, fn = .set t) ∨ fn ∈ [FMI3.Fn.doStep, .setFMUState, .reset, .setTime, .enterInitializationMode,
    .updateDiscreteStates]) (fun f => f ≠ .set ∧ f ≠ .event) (model : Model XRat Data) (fun _ => True) (OnStair n t) where
  toQuiet := clock_quiet
  calls := by
    intro fn hX f hf
    cases fn <;> simp [FMI3.Fn.calls] at hX hf ⊢ <;> first | (subst hf; simp) | (rcases hf with rfl | rfl <;> simp)
  step h := absurd (by simp) h
  nx _ _ h := h.of_eq rfl rfl rfl rfl
  nz _ _ h := h.of_eq rfl rfl rfl rfl
  prez _ _ _ h := h.of_eq rfl rfl rfl rfl
  term h := h.of_eq rfl rfl rfl rfl
  enterInit h := absurd (by simp) h
  enterConfig _ _ h _ := h.of_eq rfl rfl rfl rfl
  exitConfig _ _ h _ := h.of_eq rfl rfl rfl rfl
  reset h := absurd (by simp) h
  restore h := absurd (by simp) h
  enterEvent _ _ h _ := h.of_eq rfl rfl rfl rfl
  enterCT _ _ h _ := h.of_eq rfl rfl rfl rfl
  setTime h := absurd (by simp) h
  enterStep _ _ h _ := h.of_eq rfl rfl rfl rfl
  exitInit _ _ h _ := h.of_eq rfl rfl rfl rfl

end Stair

namespace FMI2
open Stair
variable {w w' : World XRat Data} {fuel n : Nat} {t : Rat} {s : Status} {o : Out XRat}

theorem clock_step {op : Op XRat} (h : OnStair n t w.inst)
    (hX : op.fn ∉ [Fn.doStep, .setReal, .setInteger, .setBoolean, .setString, .setFMUstate, .reset, .setTime, .setupExperiment, .newDiscreteStates, .setDebugLogging])
    (e : step Stair.model fuel w op = .ret (w', s, o)) : OnStair n t w'.inst := by
  simp only [List.mem_cons, List.not_mem_nil, or_false, not_or] at hX
  exact step_keepX Stair.eff.okOrError clock_invX2 (fun _ _ _ _ => trivial) h (fun e => absurd e hX.2.2.2.2.2.2.2.2.2.2) (by
    simp only [List.mem_cons, List.not_mem_nil, or_false, not_or]; tauto) _ e

theorem clock_setTime {t' : Rat} (h : OnStair n t w.inst) (e : step Stair.model fuel w (.setTime (.fin t')) = .ret (w', .OK, o)) : OnStair n t' w'.inst := by
  simp only [step, World.run, setTime, begin, beginFunction] at e
  obtain ⟨⟨c1, s1, o1⟩, e2, e1⟩ := Outcome.bind_eq_ret.1 e
  cases e1
  split at e2 <;> cases e2
  exact ⟨h.counter, h.next, h.defined, rfl⟩

theorem clock_setup {t' : Rat} {b : XRat} {d : Bool} (h : OnStair n t w.inst) (e : step Stair.model fuel w (.setupExperiment (.fin t') d b) = .ret (w', .OK, o)) :
    OnStair n t' w'.inst := by
  simp only [step, World.run, setupExperiment, begin, beginFunction] at e
  obtain ⟨⟨c1, s1, o1⟩, e2, e1⟩ := Outcome.bind_eq_ret.1 e
  cases e1
  split at e2 <;> cases e2
  exact ⟨h.counter, h.next, h.defined, rfl⟩

theorem clock_update {n' : Nat} {i i' : EventInfo XRat} (hc : (Close t n ∧ n' = n + 1) ∨ (¬ Close t n ∧ n' = n)) (hn : n < 10) (h : OnStair n t w.inst)
    (e : (Importer.Euler.api2 Stair.model []).update w i = .ret (w', .OK, i')) :
    (i'.terminateSimulation = decide (10 ≤ n') ∧ i'.nextEventTimeDefined = true ∧ i'.nextEventTime = .fin n') ∧ OnStair n' t w'.inst := by
  obtain ⟨⟨w1, s1, o1⟩, e1, e2⟩ := Outcome.bind_eq_ret.1 e
  simp only [step, World.run, newDiscreteStates, begin, beginFunction] at e1
  obtain ⟨⟨c2, s2, o2⟩, e3, e1⟩ := Outcome.bind_eq_ret.1 e1
  split at e3
  · simp only [Stair.model, call] at e3
    obtain ⟨⟨c3, s3, u⟩, e4, e3⟩ := Outcome.bind_eq_ret.1 e3
    obtain ⟨mv, e5, rfl⟩ := lift_eq_ret.1 e4
    obtain ⟨rfl, k1, k2, k3, k4⟩ := clock_event h hn hc e5
    cases e3
    cases e1
    cases e2
    exact ⟨⟨k4, k3, k2⟩, k1, k2, k3, h.time⟩
  · cases e3; cases e1; cases e2

end FMI2

namespace FMI3
open Stair
variable {w w' : World XRat Data} {fuel n : Nat} {t : Rat} {s : Status} {o : Out XRat}

theorem clock_step {op : Op XRat} (h : OnStair n t w.inst) (hs : ∀ t, op.fn ≠ .set t)
    (hX : op.fn ∉ [Fn.doStep, .setFMUState, .reset, .setTime, .enterInitializationMode, .updateDiscreteStates, .setDebugLogging])
    (e : step Stair.model fuel w op = .ret (w', s, o)) : OnStair n t w'.inst := by
  simp only [List.mem_cons, List.not_mem_nil, or_false, not_or] at hX
  exact step_keepX Stair.eff.okOrError clock_invX3 (fun _ _ _ _ => trivial) h (fun e => absurd e hX.2.2.2.2.2.2) (by
    rintro (⟨t, h⟩ | h)
    · exact hs t h
    · simp only [List.mem_cons, List.not_mem_nil, or_false] at h; tauto) _ e

theorem clock_setTime {t' : Rat} (h : OnStair n t w.inst) (e : step Stair.model fuel w (.setTime (.fin t')) = .ret (w', .OK, o)) : OnStair n t' w'.inst := by
  simp only [step, World.run, setTime, begin, beginFunction] at e
  obtain ⟨⟨c1, s1, o1⟩, e2, e1⟩ := Outcome.bind_eq_ret.1 e
  cases e1
  split at e2 <;> cases e2
  exact ⟨h.counter, h.next, h.defined, rfl⟩

theorem clock_enterInit {t' : Rat} {b : XRat} {d : Bool} (h : OnStair n t w.inst)
    (e : step Stair.model fuel w (.enterInitializationMode (.fin t') d b) = .ret (w', .OK, o)) : OnStair n t' w'.inst := by
  simp only [step, World.run, enterInitializationMode, begin, beginFunction] at e
  obtain ⟨⟨c1, s1, o1⟩, e2, e1⟩ := Outcome.bind_eq_ret.1 e
  cases e1
  split at e2 <;> cases e2
  exact ⟨h.counter, h.next, h.defined, rfl⟩

theorem clock_update {n' : Nat} {i i' : EventInfo XRat} (hc : (Close t n ∧ n' = n + 1) ∨ (¬ Close t n ∧ n' = n)) (hn : n < 10) (h : OnStair n t w.inst)
    (e : (Importer.Euler.api3 Stair.model []).update w i = .ret (w', .OK, i')) :
    (i'.terminateSimulation = decide (10 ≤ n') ∧ i'.nextEventTimeDefined = true ∧ i'.nextEventTime = .fin n') ∧ OnStair n' t w'.inst := by
  obtain ⟨⟨w1, s1, o1⟩, e1, e2⟩ := Outcome.bind_eq_ret.1 e
  simp only [step, World.run, updateDiscreteStates, begin, beginFunction] at e1
  obtain ⟨⟨c2, s2, o2⟩, e3, e1⟩ := Outcome.bind_eq_ret.1 e1
  split at e3
  · simp only [Stair.model, call] at e3
    obtain ⟨⟨c3, s3, u⟩, e4, e3⟩ := Outcome.bind_eq_ret.1 e3
    obtain ⟨mv, e5, rfl⟩ := lift_eq_ret.1 e4
    obtain ⟨rfl, k1, k2, k3, k4⟩ := clock_event h hn hc e5
    cases e3
    cases e1
    cases e2
    exact ⟨⟨k4, k3, k2⟩, k1, k2, k3, h.time⟩
  · cases e3; cases e1; cases e2

end FMI3
end Verif
