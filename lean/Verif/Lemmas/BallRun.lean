import Verif.Lemmas.Ball
import Verif.Lemmas.Machine

/-! # The bouncing ball as a machine -/

set_option linter.unusedSectionVars false

namespace Verif

namespace BouncingBall

/-- No time events. -/
theorem netd_inv {F : Type} [Arith F] [HasInf F] :
    MVInv (BouncingBall.model : Model F (Data F)) fun mv => mv.nextEventTimeDefined = false where
  step {f ctx mv mv' s} h e := by
    by_cases hf : f = .event
    · subst hf
      cases e with
      | event he e =>
        cases he
        cases e
        rfl
    · exact ((((RefFMU2.bouncingBall (F := F)).eff _ _ _ _ _ e).flags hf).2.2.2.1).trans h
  dirty _ h := h
  trace _ h := h
  start h := h

/-- The value of the event indicator lies in the same domain as the height. -/
theorem indicator_of (b : Ball) : ∃ p : Rat, indicator (Data.of b) = .fin p ∧ (0 < p ↔ 0 < b.h) := by
  unfold indicator
  split
  · next h =>
    refine ⟨_, rfl, ?_⟩
    simp only [Data.of, eventEpsilon, XRat.lit_eq, XRat.neg_fin, XRat.lt_fin, XRat.le_fin, Bool.and_eq_true,
      decide_eq_true_eq] at h
    constructor
    · intro h'; norm_num at h'
    · intro h'; exact absurd h' (not_lt.2 h.1.2)
  · exact ⟨b.h, rfl, Iff.rfl⟩

/-- The instance is in the state of the ball `b`. -/
structure On (b : Ball) (c : Comp XRat (Data XRat)) : Prop where
  data : c.mv.data = .of b
  netd : c.mv.nextEventTimeDefined = false
  prez : (∃ p : Rat, c.prez = [.fin p] ∧ (0 < p ↔ 0 < b.h)) ∨ 0 < b.h ∧ 0 ≤ b.v

theorem euler_of (b : Ball) : (BouncingBall.ode (F := XRat)).euler (.of b) = .of b.fall := by
  simp only [Ode.euler, BouncingBall.ode, BouncingBall.model, eulerUpdate, Data.of, Ball.fall]
  simp
  constructor <;> ring

theorem bounce_above {b : Ball} (h : 0 < b.h) : b.bounce = b := by
  unfold Ball.bounce
  rw [if_neg fun hh => absurd h (not_lt.2 hh.1)]

theorem crossing_eq {p q : Rat} {d : Data XRat} (h : indicator d = .fin q) :
    (BouncingBall.ode (F := XRat)).crossing [.fin p] d = decide ((0 < p ∧ q ≤ 0) ∨ (p ≤ 0 ∧ 0 < q)) := by
  simp only [Ode.crossing, BouncingBall.ode, h, zeroCrossing]
  rcases lt_or_ge 0 p with h1 | h1 <;> rcases lt_or_ge 0 q with h2 | h2 <;>
    simp [h1, h2, not_lt.2, not_le.2]

theorem On.event {b : Ball} {c c' : Comp XRat (Data XRat)} {s} (h : On b c)
    (e : c.lift (eventUpdate c.ctx c.mv) = .ret (c', s, ())) : On b.bounce c' := by
  rw [eventUpdate_eq _ _ h.data] at e
  cases e
  refine ⟨rfl, rfl, ?_⟩
  by_cases hh : b.Hits
  · right
    unfold Ball.bounce
    rw [if_pos hh]
    split
    · exact ⟨div_pos one_pos (pow_pos two_pos _), le_refl _⟩
    · next h1 => exact ⟨div_pos one_pos (pow_pos two_pos _), by simp only; linarith⟩
  · have : b.bounce = b := if_neg hh
    rw [this]
    exact h.prez

theorem follows : Follows (BouncingBall.ode (F := XRat)) Ball.next On (fun s c => ∃ b, On b c ∧ b.bounce = s) where
  step {s c c' se te} hr h e := by
    obtain ⟨c2, e2, -, -, hp, hd, hmv⟩ := (BouncingBall.ode (F := XRat)).fixedStep_eq hr
    rw [e] at e2
    simp only [Outcome.ret.injEq, Prod.mk.injEq, Option.some.injEq, true_and] at e2
    obtain ⟨rfl, rfl, rfl⟩ := e2
    rw [h.netd]
    have hd' : c'.mv.data = .of s.fall := by
      have : c'.mv.data = (BouncingBall.ode (F := XRat)).euler c.mv.data := hd
      rw [this, h.data, euler_of]
    obtain ⟨q, hq, hqs⟩ := indicator_of s.fall
    have hon : On s.fall c' := by
      refine ⟨hd', ?_, .inl ⟨q, ?_, hqs⟩⟩
      · rw [hmv]; exact h.netd
      · rw [hp (by decide), hd']
        exact congrArg (fun x => [x]) hq
    have hcr : ∀ p : Rat, c.prez = [.fin p] →
        (BouncingBall.ode (F := XRat)).crossing c.prez ((BouncingBall.ode (F := XRat)).euler c.mv.data) =
          decide ((0 < p ∧ q ≤ 0) ∨ (p ≤ 0 ∧ 0 < q)) := by
      intro p h1
      rw [h1, h.data, euler_of, crossing_eq hq]
    have hone : (BouncingBall.model (F := XRat)).eventUpdate.isSome = true := rfl
    rw [hone]
    simp only [Bool.false_and, Bool.or_false, Bool.and_true]
    rcases h.prez with ⟨p, h1, h2⟩ | ⟨h1, h2⟩
    · rw [hcr p h1]
      simp only [decide_eq_true_eq]
      split
      · next h3 =>
        refine ⟨_, hon, ?_⟩
        unfold Ball.next
        rcases h3 with ⟨h3, -⟩ | ⟨h3, h4⟩
        · rw [if_pos (h2.1 h3)]
        · rw [if_neg fun h => absurd (h2.2 h) (not_lt.2 h3), bounce_above (hqs.1 h4)]
      · next h3 =>
        unfold Ball.next
        split
        · next h4 =>
          rw [bounce_above]
          · exact hon
          · exact hqs.1 (not_le.1 fun h5 => h3 (.inl ⟨h2.2 h4, h5⟩))
        · exact hon
    · have h3 : 0 < s.fall.h := by
        show 0 < s.h + s.v / 1000
        have := div_nonneg h2 (by norm_num : (0 : Rat) ≤ 1000)
        linarith
      have h4 : s.next = s.fall := by unfold Ball.next; rw [if_pos h1, bounce_above h3]
      rw [h4]
      split
      · exact ⟨_, hon, bounce_above h3⟩
      · exact hon
  event {s c c' eu st} h he e := by
    cases he
    obtain ⟨b, h, rfl⟩ := h
    exact h.event e
  update h he e := by
    cases he
    exact ⟨_, h.event e⟩
  keep h a := by
    refine ⟨a.kept.data.trans h.data, a.kept.netd.trans h.netd, ?_⟩
    rcases a.prez with h' | ⟨-, h'⟩
    · rw [h']; exact h.prez
    · rw [h', h.data]
      obtain ⟨q, hq, hqs⟩ := indicator_of _
      exact .inl ⟨q, congrArg (fun x => [x]) hq, hqs⟩
  keepP h a := by
    obtain ⟨b, h, rfl⟩ := h
    refine ⟨b, ⟨a.kept.data.trans h.data, a.kept.netd.trans h.netd, ?_⟩, rfl⟩
    rcases a.prez with h' | ⟨-, h'⟩
    · rw [h']; exact h.prez
    · rw [h', h.data]
      obtain ⟨q, hq, hqs⟩ := indicator_of _
      exact .inl ⟨q, congrArg (fun x => [x]) hq, hqs⟩

end BouncingBall
end Verif
