import Verif.Lemmas.ExitStatus
import Verif.Props.C65

/-!
# C82 The status of the Co-Simulation programs

See properties.jsonl.
-/

set_option linter.unusedSectionVars false

namespace Verif
open Importer.CoSim

namespace FMI3
variable {F D : Type} [Arith F] [HasInf F] {m : Model F D} {P : Program F (Op F)} {fuel n : Nat} {resource : Ptr UInt8} {rows : List (Row F (Out F))}

/-- **C82**, FMI 3.0, for every FMU: if the Co-Simulation program returns OK, then the instance was created and every call succeeded until the end of the
simulation. -/
theorem C82 (h : simulate3 m P fuel n resource = .ret (.OK, rows)) :
    ∃ c l w₀ vs, instantiateCoSimulation m (some "instance1") (some m.token) resource false false false true false true = (some c, l) ∧
      AllOK (step m fuel) (.fresh c) (P.start ++ [.enterInitializationMode (Arith.lit 0) true P.stopTime, .exitInitializationMode]) w₀ vs ∧
      Completed (step m fuel) (GoesOn m fuel P.h) (EndsAt m fuel P.h) .terminate P w₀ rows := by
  unfold simulate3 at h
  split at h
  · cases h
  · next c l hc =>
    simp only [] at h
    rcases CALLS_ret h with ⟨w₀, vs, ha, e⟩ | ⟨h, -⟩
    · refine ⟨c, l, w₀, vs, hc, ha, loop_ok (api := Importer.CoSim.api3 m fuel P.h) ?_ ?_ ?_ .zero (fun j hj => by omega) e⟩
      · intro w t w' e
        obtain ⟨r, e1, e2⟩ := advance3_ret e
        split at e2
        · cases e2
        · next hr => exact ⟨r, e1, hr⟩
      · intro w t w' e
        obtain ⟨r, e1, e2⟩ := advance3_ret e
        split at e2
        · next hr => exact ⟨r, e1, hr, rfl⟩
        · cases e2
      · intro w t w₁ w' t' vs e
        obtain ⟨r, e1, e2⟩ := advance3_ret e
        split at e2 <;> cases e2
    · exact absurd rfl h

/-- **C82**, FMI 3.0, for every FMU: if the program returns another status, then the instance could not be created or a call failed. -/
theorem C82_failed {s : Status} (h : simulate3 m P fuel n resource = .ret (s, rows)) (hs : s ≠ .OK) :
    (instantiateCoSimulation m (some "instance1") (some m.token) resource false false false true false true).1 = none ∨
    ∃ c l, instantiateCoSimulation m (some "instance1") (some m.token) resource false false false true false true = (some c, l) ∧
      SomeCallFails (step m fuel) (.fresh c) := by
  unfold simulate3 at h
  split at h
  · next hc => rw [hc]; exact .inl rfl
  · next c l hc =>
    refine .inr ⟨c, l, hc, ?_⟩
    simp only [] at h
    rcases CALLS_ret h with ⟨w₀, vs, ha, e⟩ | ⟨-, -, pre, w₁, us, op, w', s', v, hb, e, hs'⟩
    · refine loop_failed (api := Importer.CoSim.api3 m fuel P.h) ?_ ha hs e
      intro ops w vs t w' s next hw e
      obtain ⟨r, e1, -⟩ := advance3_ret e
      replace e1 : (Importer.CoSim.api3 m fuel P.h).call w (.doStep t P.h ⟨some false, some false, some false, some (Arith.lit 0)⟩) = .ret (w', s, .step r) := e1
      by_cases hs : s = .OK
      · subst hs
        exact .inl ⟨rfl, _, _, hw.append (.cons e1 .nil)⟩
      · exact .inr ⟨_, _, _, _, _, _, _, hw, e1, hs⟩
    · exact ⟨_, _, _, _, _, _, _, hb, e, hs'⟩

/-- The run of Stair, which ends the simulation, and the run of Dahlquist with a stop time that is not a multiple of the step size, which fails. -/
example : ∃ rows, simulate3 (Stair.model : Model XRat _) stair3 106 51 none = .ret (.OK, rows) ∧ rows.length = 45 := by
  obtain ⟨⟨s, rows⟩, e, h⟩ := Outcome.exists_of_is (r := simulate3 (Stair.model : Model XRat _) stair3 106 51 none)
    (p := fun x => decide (x.1 = .OK ∧ x.2.length = 45)) (by decide +kernel)
  simp only [decide_eq_true_eq] at h
  exact ⟨rows, by rw [e, h.1], h.2⟩

example : ∃ rows, simulate3 Dahlquist.model { dahlquist3 with h := XRat.fin (2/5), stopTime := XRat.fin 1 } 100 100 none = .ret (.Error, rows) ∧ rows.length = 3 :=
  let ⟨rows, e, h⟩ := C65_not_multiple
  ⟨rows, e, by have := congrArg List.length h; simpa using this⟩

end FMI3

namespace FMI2
variable {F D : Type} [Arith F] [HasInf F] {m : Model F D} {P : Program F (Op F)} {fuel n : Nat} {resource : Ptr UInt8} {rows : List (Row F (Out F))}

/-- **C82**, FMI 2.0, for every FMU: if the Co-Simulation program returns OK, then the instance was created and every call succeeded until the end of the
simulation, but for steps that are discarded. -/
theorem C82 (h : simulate2 m P fuel n resource = .ret (.OK, rows)) :
    ∃ c l w₀ vs, instantiate m (some "instance1") .coSimulation (some m.token) resource (some true) false true = (some c, l) ∧
      AllOK (step m fuel) (.fresh c) (P.start ++ [.setupExperiment (Arith.lit 0) true P.stopTime, .enterInitializationMode, .exitInitializationMode]) w₀ vs ∧
      Completed (step m fuel) (GoesOn m fuel P) (EndsAt m fuel P) .terminate P w₀ rows := by
  unfold simulate2 at h
  split at h
  · cases h
  · next c l hc =>
    simp only [] at h
    rcases CALLS_ret h with ⟨w₀, vs, ha, e⟩ | ⟨h, -⟩
    · refine ⟨c, l, w₀, vs, hc, ha, loop_ok (api := Importer.CoSim.api2 m fuel P.h) ?_ ?_ ?_ .zero (fun j hj => by omega) e⟩
      · intro w t w' e
        rcases advance2_ret e with ⟨o, e1, -⟩ | ⟨w₁, o, e1, h⟩
        · exact .inl ⟨o, e1⟩
        · rcases h rfl with ⟨o', e2, hn, -⟩ | ⟨t', -, e⟩
          · exact .inr ⟨w₁, o, o', e1, e2, hn⟩
          · cases e
      · intro w t w' e
        rcases advance2_ret e with ⟨o, e1, h⟩ | ⟨w₁, o, e1, h⟩
        · cases h
        · rcases h rfl with ⟨o', e2, hn, h⟩ | ⟨t', -, e⟩
          · cases h
          · cases e
      · intro w t w₁ w' t' vs e hr
        rcases advance2_ret e with ⟨o, e1, h⟩ | ⟨w₁, o, e1, h⟩
        · cases h
        · rcases h rfl with ⟨o', e2, hn, h⟩ | ⟨t', h, e⟩
          · cases h
          · cases e; exact ⟨w₁, _, o, t', vs, e1, h, hr, rfl⟩
    · exact absurd rfl h

/-- **C82**, FMI 2.0, for every FMU: if the program returns another status, then the instance could not be created or a call failed. -/
theorem C82_failed {s : Status} (h : simulate2 m P fuel n resource = .ret (s, rows)) (hs : s ≠ .OK) :
    (instantiate m (some "instance1") .coSimulation (some m.token) resource (some true) false true).1 = none ∨
    ∃ c l, instantiate m (some "instance1") .coSimulation (some m.token) resource (some true) false true = (some c, l) ∧
      SomeCallFails (step m fuel) (.fresh c) := by
  unfold simulate2 at h
  split at h
  · next hc => rw [hc]; exact .inl rfl
  · next c l hc =>
    refine .inr ⟨c, l, hc, ?_⟩
    simp only [] at h
    rcases CALLS_ret h with ⟨w₀, vs, ha, e⟩ | ⟨-, -, pre, w₁, us, op, w', s', v, hb, e, hs'⟩
    · refine loop_failed (api := Importer.CoSim.api2 m fuel P.h) ?_ ha hs e
      intro ops w vs t w' s next hw e
      rcases advance2_ret e with ⟨o, e1, -⟩ | ⟨w₁, o, e1, -⟩ <;> change (Importer.CoSim.api2 m fuel P.h).call w (.doStep t P.h) = _ at e1
      · by_cases hs : s = .OK
        · subst hs
          exact .inl ⟨rfl, _, _, hw.append (.cons e1 .nil)⟩
        · exact .inr ⟨_, _, _, _, _, _, _, hw, e1, hs⟩
      · exact .inr ⟨_, _, _, _, _, _, _, hw, e1, by decide⟩
    · exact ⟨_, _, _, _, _, _, _, hb, e, hs'⟩

/-- The run of Stair, in which a step is discarded and the simulation ends, and the run of Dahlquist with a stop time that is not a multiple of the step size, which
fails. -/
example : ∃ rows, simulate2 (Stair.model : Model XRat _) stair2 106 51 none = .ret (.OK, rows) ∧ rows.length = 46 := by
  obtain ⟨⟨s, rows⟩, e, h⟩ := Outcome.exists_of_is (r := simulate2 (Stair.model : Model XRat _) stair2 106 51 none)
    (p := fun x => decide (x.1 = .OK ∧ x.2.length = 46)) (by decide +kernel)
  simp only [decide_eq_true_eq] at h
  exact ⟨rows, by rw [e, h.1], h.2⟩

example : ∃ rows, simulate2 Dahlquist.model { dahlquist2 with h := XRat.fin (2/5), stopTime := XRat.fin 1 } 100 100 none = .ret (.Error, rows) ∧ rows.length = 3 :=
  let ⟨rows, e, h⟩ := C65_not_multiple
  ⟨rows, e, by have := congrArg List.length h; simpa using this⟩

end FMI2
end Verif
