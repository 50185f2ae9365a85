import Verif.Lemmas.Grid
import Verif.Lemmas.Close
import Verif.Lemmas.Expected
import Verif.Spec.Endpoint
import Mathlib.Tactic.Ring
import Mathlib.Tactic.Linarith
import Mathlib.Algebra.Order.Ring.Rat
import Mathlib.Algebra.Order.Ring.Abs

/-! # The number of solver steps in a communication step, in exact arithmetic -/

set_option linter.unusedSectionVars false

namespace Verif

/-- The loop ends at time `t`. -/
def Reach (h q t : Rat) : Prop := q < t + h ∧ ¬ Close (t + h) q

theorem Reach.mono_q {h q q' t : Rat} (hr : Reach h q t) (hq : q' ≤ q) : Reach h q' t := by
  refine ⟨by have := hr.1; linarith, fun hc => hr.2 ?_⟩
  exact (hc.symm.between' hq hr.1.le).symm

theorem not_reach {h q t : Rat} (hr : ¬ Reach h q t) : t + h ≤ q ∨ Close (t + h) q := by
  by_cases h1 : q < t + h
  · exact .inr (Classical.byContradiction fun h2 => hr ⟨h1, h2⟩)
  · exact .inl (not_lt.1 h1)

theorem Reach.mono_t {h q t t' : Rat} (hr : Reach h q t) (ht : t ≤ t') : Reach h q t' := by
  refine ⟨by have := hr.1; linarith, fun hc => hr.2 ?_⟩
  exact (hc.symm.between hr.1.le (by linarith)).symm

variable {D : Type} {m : Model XRat D}

theorem reached_fin {h q t : Rat} {c : Comp XRat D} (hh : m.h = .fin h) (ht : c.ctx.time = .fin t) :
    reached m (.fin q) c = true ↔ Reach h q t := by
  rw [reached, hh, ht, XRat.add_fin, XRat.lt_fin, Bool.and_eq_true, Bool.not_eq_true', isClose_fin_false,
    decide_eq_true_eq]
  exact Iff.rfl

theorem reached_fin_false {h q t : Rat} {c : Comp XRat D} (hh : m.h = .fin h) (ht : c.ctx.time = .fin t) :
    reached m (.fin q) c = false ↔ ¬ Reach h q t := by
  rw [← reached_fin hh ht, Bool.not_eq_true]

/-- If the loop can end then the end point is a number, or minus infinity. -/
theorem reached_next {h t : Rat} {c : Comp XRat D} {next : XRat} (hh : m.h = .fin h) (ht : c.ctx.time = .fin t)
    (hr : reached m next c = true) : next = .ninf ∨ ∃ q, next = .fin q := by
  rw [reached, hh, ht, XRat.add_fin, Bool.and_eq_true] at hr
  cases next with
  | fin q => exact .inr ⟨q, rfl⟩
  | ninf => exact .inl rfl
  | pinf => exact absurd hr.1 (by simp [Arith.lt, XRat.lt])
  | nan => exact absurd hr.1 (by simp [Arith.lt, XRat.lt])

/-- The times of an instance are on the solver grid. -/
structure Ticks (h s t : Rat) (c : Comp XRat D) : Prop where
  start : c.startTime = .fin s
  time : c.ctx.time = .fin t
  grid : t = s + c.nSteps * h

theorem Ticks.of_advanced {h s : Rat} {c c' : Comp XRat D} {n : Nat} (a : Advanced (.fin h) c.times c'.times n)
    (h0 : c.nSteps = 0) (hs : c.startTime = .fin s) (ht : c.ctx.time = .fin s) (hn : n < 2 ^ 64) :
    Ticks h s (s + n * h) c' ∧ c'.nSteps = n := by
  have h1 : c'.startTime = c.startTime := a.startTime
  have h2 : c'.nSteps = if n = 0 then c.nSteps else (c.nSteps + n) % 2 ^ 64 := a.nSteps
  have h3 : c'.ctx.time = if n = 0 then c.ctx.time else gridPoint c.startTime (.fin h) c'.nSteps := a.time
  have e : c'.nSteps = n := by
    rw [h2, h0]; split
    · omega
    · rw [Nat.zero_add, Nat.mod_eq_of_lt hn]
  refine ⟨⟨h1.trans hs, ?_, by rw [e]⟩, e⟩
  rw [h3, e]
  split
  · next h' => subst h'; rw [ht]; simp
  · rw [hs]; rfl

theorem Ticks.advance {h s t : Rat} {c c' : Comp XRat D} (hh : m.h = .fin h) (hc : Ticks h s t c)
    (hn : c.nSteps + 1 < 2 ^ 64) (f : Frame (advanceTime m c) c') :
    Ticks h s (t + h) c' ∧ c'.nSteps = c.nSteps + 1 := by
  have e : c'.nSteps = c.nSteps + 1 := by
    rw [f.nSteps]; show (c.nSteps + 1) % 2 ^ 64 = _; exact Nat.mod_eq_of_lt hn
  have hg : t + h = s + ((c.nSteps + 1 : Nat) : Rat) * h := by rw [hc.grid]; push_cast; ring
  refine ⟨⟨by rw [f.startTime]; exact hc.start, ?_, by rw [e]; exact hg⟩, e⟩
  rw [f.ctx]
  show (c.startTime +. Arith.lit (((c.nSteps + 1) % 2 ^ 64 : Nat) : Rat) *. m.h) = _
  rw [Nat.mod_eq_of_lt hn, hc.start, hh, hg]
  rfl

/-- What a loop knows about time: it did `n` steps of which none but the last can have been the last. -/
structure Count (h q s t : Rat) (c c' : Comp XRat D) (n : Nat) : Prop where
  ticks : Ticks h s (t + n * h) c'
  nSteps : c'.nSteps = c.nSteps + n
  before : ∀ j < n, ¬ Reach h q (t + j * h)

theorem Count.zero {h q s t : Rat} {c c' : Comp XRat D} (hc : Ticks h s t c) (h1 : c'.times.startTime = c.times.startTime)
    (h2 : c'.times.nSteps = c.times.nSteps) (h3 : c'.times.time = c.times.time) :
    Count h q s t c c' 0 :=
  ⟨⟨Eq.trans h1 hc.start, by rw [show c'.ctx.time = _ from h3]; simp [Comp.times, hc.time],
    by rw [show c'.nSteps = _ from h2]; simpa [Comp.times] using hc.grid⟩, h2, by simp⟩

theorem Count.succ {h q s t : Rat} {c c1 c' : Comp XRat D} {n : Nat} (hn1 : c1.nSteps = c.nSteps + 1)
    (hr : ¬ Reach h q t) (a : Count h q s (t + h) c1 c' n) : Count h q s t c c' (n + 1) := by
  have e : ∀ k : Nat, t + h + k * h = t + ((k + 1 : Nat) : Rat) * h := fun k => by push_cast; ring
  refine ⟨e n ▸ a.ticks, by rw [a.nSteps, hn1]; omega, fun j hj => ?_⟩
  cases j with
  | zero => simpa using hr
  | succ j => rw [← e]; exact a.before j (by omega)

theorem Count.last {h q s t : Rat} {c c' : Comp XRat D} {n : Nat} (a : Count h q s t c c' (n + 1)) :
    t + ((n + 1 : Nat) : Rat) * h ≤ q ∨ Close (t + ((n + 1 : Nat) : Rat) * h) q := by
  have := not_reach (a.before n (by omega))
  rw [show t + (n : Rat) * h + h = t + ((n + 1 : Nat) : Rat) * h by push_cast; ring] at this
  exact this

theorem FMI2.Loop.count (hm : OkOrError m) {h q s : Rat} (hh : m.h = .fin h) {next : XRat} (hq : next = .fin q)
    {c c' : Comp XRat D} {n st} (hl : FMI2.Loop m next c n c' st) (hs : st ≠ .Error) : ∀ {t : Rat}, Ticks h s t c →
    c.nSteps + n < 2 ^ 64 →
    Count h q s t c c' n ∧ (st = .OK → Reach h q (t + n * h)) := by
  subst hq
  induction hl with
  | done hr =>
    intro t hc _
    exact ⟨.zero hc rfl rfl rfl, fun _ => by simpa using (reached_fin hh hc.time).1 hr⟩
  | step hr e ht _ ih =>
    intro t hc hn
    obtain ⟨h1, h2⟩ := hc.advance hh (by omega) (iter_frame hm e)
    obtain ⟨a, b⟩ := ih hs h1 (by omega)
    refine ⟨a.succ h2 ((reached_fin_false hh hc.time).1 hr), fun e => ?_⟩
    have := b e
    rwa [add_assoc, ← one_add_mul, add_comm (1 : Rat), ← Nat.cast_succ] at this
  | discard hr e ht =>
    intro t hc hn
    obtain ⟨h1, h2⟩ := hc.advance hh (by omega) (iter_frame hm e)
    exact ⟨(Count.zero h1 rfl rfl rfl).succ h2 ((reached_fin_false hh hc.time).1 hr), fun e => by cases e⟩
  | error => exact absurd rfl hs

theorem FMI3.Loop.count (hm : OkOrError m) {h q s : Rat} (hh : m.h = .fin h) {next : XRat} (hq : next = .fin q)
    {c c' : Comp XRat D} {ehn n st e r} (hl : FMI3.Loop m next c ehn n c' st e r) (hs : st ≠ .Error) : ∀ {t : Rat},
    Ticks h s t c → c.nSteps + n < 2 ^ 64 →
    Count h q s t c c' n ∧ (r = true → Reach h q (t + n * h)) := by
  subst hq
  induction hl with
  | done hr =>
    intro t hc _
    exact ⟨.zero hc rfl rfl rfl, fun h => by simpa using (reached_fin hh hc.time).1 h⟩
  | step hr e _ ih =>
    intro t hc hn
    obtain ⟨h1, h2⟩ := hc.advance hh (by omega) (iter_frame hm e)
    obtain ⟨a, b⟩ := ih hs h1 (by omega)
    refine ⟨a.succ h2 ((reached_fin_false hh hc.time).1 (by simpa using (Bool.or_eq_false_iff.1 hr).1)), fun e => ?_⟩
    have := b e
    rwa [add_assoc, ← one_add_mul, add_comm (1 : Rat), ← Nat.cast_succ] at this
  | leave hr e =>
    intro t hc hn
    obtain ⟨h1, h2⟩ := hc.advance hh (by omega) (iter_frame hm e)
    exact ⟨(Count.zero h1 rfl rfl rfl).succ h2
      ((reached_fin_false hh hc.time).1 (by simpa using (Bool.or_eq_false_iff.1 hr).1)), fun e => by cases e⟩
  | error => exact absurd rfl hs

end Verif
