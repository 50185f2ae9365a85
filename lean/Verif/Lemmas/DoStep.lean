import Verif.Lemmas.Expected
import Verif.Lemmas.Modes2
import Verif.Lemmas.Reach3
import Verif.Lemmas.TimeVar
import Verif.Spec.Observe

/-! # `DoStep` as a solver loop -/

set_option linter.unusedSectionVars false

namespace Verif
variable {F D : Type} [Arith F] [HasInf F] {m : Model F D}

namespace FMI2

theorem reads_time (hm : OkOrError m) (ht : m.TimeVar) (w : World F D) :
    ReadsTime m w w.inst.ctx.time :=
  fun _ _ _ _ e => read_time hm ht _ e rfl

/-- A `DoStep` that is not an error ran the loop. -/
theorem doStep_loop (hm : OkOrError m) {fuel : Nat} {w w' : World F D} {ccp h : F} {s o}
    (e : step m fuel w (.doStep ccp h) = .ret (w', s, o)) (hs : s ≠ .Error) :
    w.inst.ctx.state = .stepComplete ∧ w' = { w with inst := w'.inst } ∧
      ∃ n, n ≤ fuel ∧ Loop m (ccp +. h) w.inst n w'.inst s := by
  simp only [step, World.run, doStep, begin, beginFunction] at e
  obtain ⟨⟨c, s', u⟩, e1, e⟩ := Outcome.bind_eq_ret.1 e
  cases e
  split at e1
  · next ha =>
    refine ⟨(allowed_doStep _).1 ha, rfl, ?_⟩
    split at e1
    · cases e1; exact absurd rfl hs
    · split at e1
      · cases e1; exact absurd rfl hs
      · split at e1
        · cases e1; exact absurd rfl hs
        · exact Loop.of_eq hm e1
  · cases e1; exact absurd rfl hs

theorem Loop.state (hm : OkOrError m) {next : F} {c c' : Comp F D} {n s}
    (h : Loop m next c n c' s) (hs : s ≠ .Error) : c'.ctx.state = c.ctx.state := by
  induction h with
  | done => rfl
  | step hr e ht _ ih => rw [ih hs, (iter_frame hm e).ctx]; rfl
  | discard hr e ht => rw [(iter_frame hm e).ctx]; rfl
  | error hr e => exact absurd rfl hs

theorem Loop.terminated {next : F} {c c' : Comp F D} {n s} (h : Loop m next c n c' s) :
    (s = .Discard → c'.mv.terminateSimulation = true) ∧
    (s = .OK → n ≠ 0 ∨ c.mv.terminateSimulation = false → c'.mv.terminateSimulation = false) := by
  induction h with
  | done hr => exact ⟨(fun h => by cases h), fun _ h => h.resolve_left (by simp)⟩
  | step hr e ht _ ih => exact ⟨ih.1, fun hs _ => ih.2 hs (.inr ht)⟩
  | discard hr e ht => exact ⟨fun _ => ht, fun h => by cases h⟩
  | error hr e => exact ⟨(fun h => by cases h), (fun h => by cases h)⟩

theorem Loop.status {next : F} {c c' : Comp F D} {n s} (h : Loop m next c n c' s) :
    s = .OK ∨ s = .Discard ∨ s = .Error := by
  induction h with
  | done => exact .inl rfl
  | step hr e ht _ ih => exact ih
  | discard => exact .inr (.inl rfl)
  | error => exact .inr (.inr rfl)

end FMI2

namespace FMI3

theorem reads_time (hm : OkOrError m) (ht : m.TimeVar) (w : World F D) :
    ReadsTime m w w.inst.ctx.time :=
  fun _ _ _ _ e => read_time hm ht _ e rfl

/-- A successful `DoStep` ran the loop. -/
theorem doStep_loop (hm : OkOrError m) {fuel : Nat} {w w' : World F D} {ccp h : F} {out o}
    (e : step m fuel w (.doStep ccp h out) = .ret (w', .OK, o)) :
    w.inst.ctx.state ∈ Spec.allowedIn .doStep ∧
    ∃ n c' ehn r, n ≤ fuel ∧ Loop m (ccp +. h) w.inst false n c' .OK ehn r ∧
      w' = { w with inst := { c' with
        nextCommunicationPoint := if r then ccp +. h else c'.ctx.time } } ∧
      o = .step ⟨some ehn, some c'.mv.terminateSimulation,
        some (c'.earlyReturnAllowed && !r), some c'.ctx.time⟩ := by
  simp only [step, World.run, doStep, begin, beginFunction] at e
  obtain ⟨⟨c, s', u⟩, e1, e⟩ := Outcome.bind_eq_ret.1 e
  cases e
  split at e1
  · next ha =>
    refine ⟨(allowed_fn w.inst.ctx .doStep).1 ha, ?_⟩
    split at e1
    · cases e1
    · split at e1
      · cases e1
      · split at e1
        · cases e1
        · split at e1
          · cases e1
          · obtain ⟨n, c1, s1, ehn, r, hn, hl, hf⟩ := Loop.of_eq hm e1
            unfold finish at hf
            split at hf
            · next hs =>
              subst hs
              unfold doStepEnd at hf
              split at hf
              · cases hf
              · cases hf
                exact ⟨n, c1, ehn, r, hn, hl, rfl, rfl⟩
            · next hs => cases hf; exact absurd rfl hs
  · cases e1

end FMI3
end Verif
