import Verif.Spec.Expected
import Verif.Lemmas.Times
import Verif.Lemmas.Reach3

/-!
# The instance keeps the expected communication point
-/

set_option linter.unusedSectionVars false

namespace Verif
variable {F D : Type} [Arith F] [HasInf F] {m : Model F D}

/-- The clock kept by an instance. -/
def Comp.clock (c : Comp F D) : Clock F := ⟨c.nextCommunicationPoint, c.stopTime⟩

theorem Frame.clock {c c' : Comp F D} (h : Frame c c') : c'.clock = c.clock := by
  unfold Comp.clock
  rw [h.ncp, h.stopTime]

theorem advanceTime_clock (c : Comp F D) : (advanceTime m c).clock = c.clock := rfl

theorem clock_of_times {c : Comp F D} {t : Times F} (h : c.times = t) : c.clock = ⟨t.ncp, t.stopTime⟩ := by
  subst h; rfl

namespace FMI2

theorem Loop.clock (hm : OkOrError m) {next : F} {c c' : Comp F D} {n s}
    (h : Loop m next c n c' s) :
    c'.clock = if s = .OK then { c.clock with expected := next } else c.clock := by
  induction h with
  | done => rfl
  | step hr e ht _ ih => rw [ih, (iter_frame hm e).clock]; rfl
  | discard hr e ht => exact (iter_frame hm e).clock
  | error hr e =>
    rcases iter_eq_ret hm e with ⟨h, -⟩ | ⟨-, c1, rfl, h | h⟩
    · cases h
    · exact h.clock
    · exact h.clock

theorem step_clock (hm : OkOrError m) {fuel : Nat} {w : World F D} {op : Op F}
    (hs : ∀ i, op ≠ .setFMUstate i) :
    (step m fuel w op).All fun x => x.1.inst.clock = w.inst.clock.after2 op x.2.1 := by
  by_cases hd : op.fn = .doStep
  · cases op <;> simp only [Op.fn, reduceCtorEq] at hd
    case doStep ccp h =>
    simp only [step, World.run, doStep, begin, beginFunction]
    rintro ⟨w', s, o⟩ e
    obtain ⟨⟨c, s', u⟩, e1, e⟩ := Outcome.bind_eq_ret.1 e
    cases e
    simp only
    split at e1
    · split at e1
      · cases e1; rfl
      · split at e1
        · cases e1; rfl
        · split at e1
          · cases e1; rfl
          · obtain ⟨n, -, hl⟩ := Loop.of_eq hm e1
            exact hl.clock hm
    · cases e1; rfl
  · refine (step_times hm hd).mono fun x hx => ?_
    rw [clock_of_times hx]
    unfold timesAfter Clock.after2
    split
    · cases op <;> first | rfl | exact absurd rfl (hs _) | exact absurd rfl hd
    · rfl

theorem run_clock (hm : OkOrError m) {fuel : Nat} : ∀ (ops : List (Op F)) {w : World F D},
    (∀ op ∈ ops, ∀ i, op ≠ .setFMUstate i) →
    (run m fuel w ops).All fun x => x.1.inst.clock = w.inst.clock.run2 ops x.2 := by
  intro ops
  induction ops with
  | nil => intro w _; simp [run, Clock.run2]
  | cons op ops ih =>
    intro w h
    unfold run
    refine Outcome.All.bind (step_clock hm (h op (by simp))) ?_
    rintro ⟨w1, s, o⟩ h1
    refine Outcome.All.bind (ih fun op ho => h op (by simp [ho])) ?_
    rintro ⟨w2, l⟩ h2
    rw [Outcome.all_ret]
    simp only at h1 h2 ⊢
    rw [h2, h1, Clock.run2]

end FMI2

namespace FMI3

theorem Loop.clock (hm : OkOrError m) {next : F} {c c' : Comp F D} {ehn n s e r}
    (h : Loop m next c ehn n c' s e r) : c'.clock = c.clock := by
  induction h with
  | done => rfl
  | step hr e _ ih => rw [ih, (iter_frame hm e).clock]; rfl
  | leave hr e => exact (iter_frame hm e).clock
  | error hr e =>
    rcases iter_eq_ret hm e with ⟨h, -⟩ | ⟨-, c1, rfl, h | h⟩
    · cases h
    · exact h.clock
    · exact h.clock

theorem iter_era (hm : OkOrError m) {c c' : Comp F D} {ehn o}
    (h : iter m c ehn = .ret (c', .OK, o)) : c'.earlyReturnAllowed = c.earlyReturnAllowed :=
  (iter_frame hm h).era

/-- When the loop ends with success but not at the end of the step, then it returned early or the
FMU asked for termination. -/
theorem Loop.left (hm : OkOrError m) {next : F} {c c' : Comp F D} {ehn n s e r}
    (h : Loop m next c ehn n c' s e r) :
    s = .OK → r = false → c'.earlyReturnAllowed = true ∨ c'.mv.terminateSimulation = true := by
  induction h with
  | @done c ehn hr =>
    intro _ h
    rw [h] at hr
    simp only [Bool.false_or, Bool.and_eq_true] at hr
    exact .inl hr.2
  | step hr e _ ih => exact ih
  | leave hr e =>
    intro _ _
    rcases iter_eq_ret hm e with ⟨-, c0, ehn0, c1, se, te, -, -, h⟩ | ⟨h, -⟩
    · rcases h with ⟨-, rfl, h⟩ | ⟨-, -, -, rfl, h⟩ | ⟨eu, -, -, -, -, h⟩
      · simp only [Prod.mk.injEq] at h
        exact .inr h.2.symm
      · simp only [Prod.mk.injEq] at h
        simpa using h.2.symm
      · simp only [Prod.mk.injEq] at h
        simpa using h.2.symm
    · cases h
  | error => intro h; cases h

theorem step_clock (hm : OkOrError m) {fuel : Nat} {w : World F D} {op : Op F}
    (hs : ∀ i, op ≠ .setFMUState i) :
    (step m fuel w op).All fun x => ¬ x.2.2.terminates →
      x.1.inst.clock = w.inst.clock.after3 op x.2.1 x.2.2 := by
  by_cases hd : op.fn = .doStep
  · cases op <;> simp only [Op.fn, reduceCtorEq] at hd
    case doStep ccp h out =>
    simp only [step, World.run, doStep, begin, beginFunction]
    rintro ⟨w', s, o⟩ e
    obtain ⟨⟨c, s', u⟩, e1, e⟩ := Outcome.bind_eq_ret.1 e
    cases e
    simp only
    intro ht
    split at e1
    · split at e1
      · cases e1; rfl
      · split at e1
        · cases e1; rfl
        · split at e1
          · cases e1; rfl
          · split at e1
            · cases e1
            · obtain ⟨n, c1, s1, e, r, -, hl, hf⟩ := Loop.of_eq hm e1
              unfold finish at hf
              split at hf
              · next hs =>
                subst hs
                have hcl := hl.clock hm
                have hle := hl.left hm rfl
                unfold doStepEnd at hf
                split at hf
                · cases hf
                · cases hf
                  simp only [Out.terminates, Option.some.injEq, Bool.not_eq_true] at ht
                  simp only [Clock.after3, if_true, Option.some.injEq, Bool.and_eq_true,
                    Bool.not_eq_true']
                  unfold Comp.clock at *
                  simp only [Clock.mk.injEq] at hcl
                  cases r
                  · have := hle rfl
                    simp only [ht, Bool.false_eq_true, or_false] at this
                    simp [this, hcl]
                  · simp [hcl]
              · next hs =>
                cases hf
                simp only [Clock.after3, hs, if_false]
                exact hl.clock hm
    · cases e1; rfl
  · refine (step_times hm hd).mono fun x hx _ => ?_
    rw [clock_of_times hx]
    unfold timesAfter Clock.after3
    split
    · cases op <;> first | rfl | exact absurd rfl (hs _) | exact absurd rfl hd
    · rfl

theorem run_clock (hm : OkOrError m) {fuel : Nat} : ∀ (ops : List (Op F)) {w : World F D},
    (∀ op ∈ ops, ∀ i, op ≠ .setFMUState i) →
    (run m fuel w ops).All fun x => (∀ o ∈ x.2, ¬ o.2.terminates) →
      x.1.inst.clock = w.inst.clock.run3 ops x.2 := by
  intro ops
  induction ops with
  | nil => intro w _; simp [run, Clock.run3]
  | cons op ops ih =>
    intro w h
    unfold run
    refine Outcome.All.bind (step_clock hm (h op (by simp))) ?_
    rintro ⟨w1, s, o⟩ h1
    refine Outcome.All.bind (ih fun op ho => h op (by simp [ho])) ?_
    rintro ⟨w2, l⟩ h2
    rw [Outcome.all_ret]
    simp only at h1 h2 ⊢
    intro hl
    rw [h2 fun o ho => hl o (by simp [ho]), h1 (hl (s, o) (by simp)), Clock.run3]

end FMI3
end Verif
