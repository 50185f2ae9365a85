import Verif.Lemmas.ExitStatusME
import Verif.Importer.Programs

/-!
# C82 The status of the Model Exchange programs

See properties.jsonl.
-/

set_option linter.unusedSectionVars false

namespace Verif
open Importer.Euler Importer.CoSim

namespace FMI2
variable {F D : Type} [Arith F] [HasInf F] {m : Model F D} {M : Macros} {P : Program F (Op F)} {inp : Inputs F (Op F)} {fuel n : Nat} {resource : Ptr UInt8}
  {rows : List (Row F (Out F))}

theorem calls_api2 : CallsApi (step m 0) (Importer.Euler.api2 m []) := by
  constructor <;> intros <;> next h => obtain ⟨⟨w1, s1, o⟩, e1, e2⟩ := Outcome.bind_eq_ret.1 h; cases e2; exact ⟨_, _, e1⟩

theorem sound_simulate2 {s : Status} (h : Importer.Euler.simulate2 m M P fuel n resource = .ret (s, rows)) :
    (instantiate m (some "instance1") .modelExchange (some m.token) resource (some true) false true).1 = none ∧ s = .Error ∨
    ∃ c l, instantiate m (some "instance1") .modelExchange (some m.token) resource (some true) false true = (some c, l) ∧
      (s = .OK → ∃ w w' o, Writes (step m 0) P.record (.fresh c) w rows ∧ step m 0 w .terminate = .ret (w', .OK, o)) ∧
      (s ≠ .OK → SomeCallFails (step m 0) (.fresh c)) := by
  unfold Importer.Euler.simulate2 at h
  split at h
  · next hc => cases h; rw [hc]; exact .inl ⟨rfl, rfl⟩
  · next c l hc =>
    refine .inr ⟨c, l, hc, ?_⟩
    simp only [] at h
    rcases CALLS_ret h with ⟨w₀, vs, ha, e⟩ | ⟨hs, -, pre, w₁, us, op, w', s', v, hb, e, hs'⟩
    · obtain ⟨⟨b, s1⟩, e1, e2⟩ := Outcome.bind_eq_ret.1 e
      have h1 := sound_simulate (w₀ := World.fresh c) calls_api2 (⟨rfl, Writes.start.calls ha⟩ : Clean (step m 0) P.record (World.fresh c) ⟨w₀, .OK, Arith.lit 0, []⟩) _ e1
      simp only [] at e2
      split at e2
      · cases e2
      · exact sound_tearDown (api := Importer.CoSim.api2 m 0 P.h) (record := P.record) (h1.imp id And.right) e2
    · exact ⟨fun h => absurd h hs, fun _ => ⟨_, _, _, _, _, _, _, hb, e, hs'⟩⟩

theorem sound_simulate2With {s : Status} (h : simulate2With m M P inp fuel n resource = .ret (s, rows)) :
    (instantiate m (some "instance1") .modelExchange (some m.token) resource (some true) false true).1 = none ∧ s = .Error ∨
    ∃ c l, instantiate m (some "instance1") .modelExchange (some m.token) resource (some true) false true = (some c, l) ∧
      (s = .OK → ∃ w w' o, Writes (step m 0) P.record (.fresh c) w rows ∧ step m 0 w .terminate = .ret (w', .OK, o)) ∧
      (s ≠ .OK → SomeCallFails (step m 0) (.fresh c)) := by
  unfold simulate2With at h
  split at h
  · next hc => cases h; rw [hc]; exact .inl ⟨rfl, rfl⟩
  · next c l hc =>
    refine .inr ⟨c, l, hc, ?_⟩
    simp only [] at h
    rcases CALLS_ret h with ⟨w₀, vs, ha, e⟩ | ⟨hs, -, pre, w₁, us, op, w', s', v, hb, e, hs'⟩
    · obtain ⟨⟨b, s1⟩, e1, e2⟩ := Outcome.bind_eq_ret.1 e
      have h1 := sound_simulateWith (w₀ := World.fresh c) calls_api2 (⟨rfl, Writes.start.calls ha⟩ : Clean (step m 0) P.record (World.fresh c) ⟨w₀, .OK, Arith.lit 0, []⟩) _ e1
      simp only [] at e2
      split at e2
      · cases e2
      · exact sound_tearDown (api := Importer.CoSim.api2 m 0 P.h) (record := P.record) (h1.imp id And.right) e2
    · exact ⟨fun h => absurd h hs, fun _ => ⟨_, _, _, _, _, _, _, hb, e, hs'⟩⟩

/-- **C82**, FMI 2.0, Model Exchange, for every FMU: if the program returns OK, then the instance was created, and the rows are those of a history in which every call
succeeded, up to the end of the simulation. -/
theorem C82_me (h : Importer.Euler.simulate2 m M P fuel n resource = .ret (.OK, rows)) :
    ∃ c l w w' o, instantiate m (some "instance1") .modelExchange (some m.token) resource (some true) false true = (some c, l) ∧
      Writes (step m 0) P.record (.fresh c) w rows ∧ step m 0 w .terminate = .ret (w', .OK, o) := by
  rcases sound_simulate2 h with ⟨-, h⟩ | ⟨c, l, hc, h, -⟩
  · cases h
  · obtain ⟨w, w', o, h1, h2⟩ := h rfl
    exact ⟨c, l, w, w', o, hc, h1, h2⟩

/-- **C82**, FMI 2.0, Model Exchange, for every FMU: if the program returns another status, then the instance could not be created or a call failed. -/
theorem C82_me_failed {s : Status} (h : Importer.Euler.simulate2 m M P fuel n resource = .ret (s, rows)) (hs : s ≠ .OK) :
    (instantiate m (some "instance1") .modelExchange (some m.token) resource (some true) false true).1 = none ∨
    ∃ c l, instantiate m (some "instance1") .modelExchange (some m.token) resource (some true) false true = (some c, l) ∧ SomeCallFails (step m 0) (.fresh c) := by
  rcases sound_simulate2 h with ⟨h, -⟩ | ⟨c, l, hc, -, h⟩
  · exact .inl h
  · exact .inr ⟨c, l, hc, h hs⟩

/-- **C82**, FMI 2.0, Model Exchange with inputs, for every FMU: if the program returns OK, then the instance was created, and the rows are those of a history in which every call
succeeded, up to the end of the simulation. -/
theorem C82_me_inputs (h : simulate2With m M P inp fuel n resource = .ret (.OK, rows)) :
    ∃ c l w w' o, instantiate m (some "instance1") .modelExchange (some m.token) resource (some true) false true = (some c, l) ∧
      Writes (step m 0) P.record (.fresh c) w rows ∧ step m 0 w .terminate = .ret (w', .OK, o) := by
  rcases sound_simulate2With h with ⟨-, h⟩ | ⟨c, l, hc, h, -⟩
  · cases h
  · obtain ⟨w, w', o, h1, h2⟩ := h rfl
    exact ⟨c, l, w, w', o, hc, h1, h2⟩

/-- **C82**, FMI 2.0, Model Exchange with inputs, for every FMU: if the program returns another status, then the instance could not be created or a call failed. -/
theorem C82_me_inputs_failed {s : Status} (h : simulate2With m M P inp fuel n resource = .ret (s, rows)) (hs : s ≠ .OK) :
    (instantiate m (some "instance1") .modelExchange (some m.token) resource (some true) false true).1 = none ∨
    ∃ c l, instantiate m (some "instance1") .modelExchange (some m.token) resource (some true) false true = (some c, l) ∧ SomeCallFails (step m 0) (.fresh c) := by
  rcases sound_simulate2With h with ⟨h, -⟩ | ⟨c, l, hc, -, h⟩
  · exact .inl h
  · exact .inr ⟨c, l, hc, h hs⟩

/-- With the wrong number of states the program of Dahlquist fails: it records nothing. -/
example : ∃ rows, Importer.Euler.simulate2 (Dahlquist.model : Model XRat _) ⟨2, 0⟩ dahlquist2 10 10 none = .ret (.Error, rows) ∧ rows.length = 0 := by
  obtain ⟨⟨s, rows⟩, e, h⟩ := Outcome.exists_of_is (r := Importer.Euler.simulate2 (Dahlquist.model : Model XRat _) ⟨2, 0⟩ dahlquist2 10 10 none)
    (p := fun x => decide (x.1 = .Error ∧ x.2.length = 0)) (by decide +kernel)
  simp only [decide_eq_true_eq] at h
  exact ⟨rows, by rw [e, h.1], h.2⟩

/-- With the right one it succeeds; the programs with inputs do so by `C66_inputs`. -/
example : ∃ rows, Importer.Euler.simulate2 (Dahlquist.model : Model XRat _) ⟨1, 0⟩ dahlquist2 10 200 none = .ret (.OK, rows) ∧ rows.length = 101 := by
  obtain ⟨⟨s, rows⟩, e, h⟩ := Outcome.exists_of_is (r := Importer.Euler.simulate2 (Dahlquist.model : Model XRat _) ⟨1, 0⟩ dahlquist2 10 200 none)
    (p := fun x => decide (x.1 = .OK ∧ x.2.length = 101)) (by decide +kernel)
  simp only [decide_eq_true_eq] at h
  exact ⟨rows, by rw [e, h.1], h.2⟩

end FMI2

namespace FMI3
variable {F D : Type} [Arith F] [HasInf F] {m : Model F D} {M : Macros} {P : Program F (Op F)} {inp : Inputs F (Op F)} {fuel n : Nat} {resource : Ptr UInt8}
  {rows : List (Row F (Out F))}

theorem calls_api3 : CallsApi (step m 0) (Importer.Euler.api3 m []) := by
  constructor <;> intros <;> next h => obtain ⟨⟨w1, s1, o⟩, e1, e2⟩ := Outcome.bind_eq_ret.1 h; cases e2; exact ⟨_, _, e1⟩

theorem sound_simulate3 {s : Status} (h : Importer.Euler.simulate3 m M P fuel n resource = .ret (s, rows)) :
    (instantiateModelExchange m (some "instance1") (some m.token) resource false true true).1 = none ∧ s = .Error ∨
    ∃ c l, instantiateModelExchange m (some "instance1") (some m.token) resource false true true = (some c, l) ∧
      (s = .OK → ∃ w w' o, Writes (step m 0) P.record (.fresh c) w rows ∧ step m 0 w .terminate = .ret (w', .OK, o)) ∧
      (s ≠ .OK → SomeCallFails (step m 0) (.fresh c)) := by
  unfold Importer.Euler.simulate3 at h
  split at h
  · next hc => cases h; rw [hc]; exact .inl ⟨rfl, rfl⟩
  · next c l hc =>
    refine .inr ⟨c, l, hc, ?_⟩
    simp only [] at h
    rcases CALLS_ret h with ⟨w₀, vs, ha, e⟩ | ⟨hs, -, pre, w₁, us, op, w', s', v, hb, e, hs'⟩
    · obtain ⟨⟨b, s1⟩, e1, e2⟩ := Outcome.bind_eq_ret.1 e
      have h1 := sound_simulate (w₀ := World.fresh c) calls_api3 (⟨rfl, Writes.start.calls ha⟩ : Clean (step m 0) P.record (World.fresh c) ⟨w₀, .OK, Arith.lit 0, []⟩) _ e1
      simp only [] at e2
      split at e2
      · cases e2
      · exact sound_tearDown (api := Importer.CoSim.api3 m 0 P.h) (record := P.record) (h1.imp id And.right) e2
    · exact ⟨fun h => absurd h hs, fun _ => ⟨_, _, _, _, _, _, _, hb, e, hs'⟩⟩

theorem sound_simulate3With {s : Status} (h : simulate3With m M P inp fuel n resource = .ret (s, rows)) :
    (instantiateModelExchange m (some "instance1") (some m.token) resource false true true).1 = none ∧ s = .Error ∨
    ∃ c l, instantiateModelExchange m (some "instance1") (some m.token) resource false true true = (some c, l) ∧
      (s = .OK → ∃ w w' o, Writes (step m 0) P.record (.fresh c) w rows ∧ step m 0 w .terminate = .ret (w', .OK, o)) ∧
      (s ≠ .OK → SomeCallFails (step m 0) (.fresh c)) := by
  unfold simulate3With at h
  split at h
  · next hc => cases h; rw [hc]; exact .inl ⟨rfl, rfl⟩
  · next c l hc =>
    refine .inr ⟨c, l, hc, ?_⟩
    simp only [] at h
    rcases CALLS_ret h with ⟨w₀, vs, ha, e⟩ | ⟨hs, -, pre, w₁, us, op, w', s', v, hb, e, hs'⟩
    · obtain ⟨⟨b, s1⟩, e1, e2⟩ := Outcome.bind_eq_ret.1 e
      have h1 := sound_simulateWith (w₀ := World.fresh c) calls_api3 (⟨rfl, Writes.start.calls ha⟩ : Clean (step m 0) P.record (World.fresh c) ⟨w₀, .OK, Arith.lit 0, []⟩) _ e1
      simp only [] at e2
      split at e2
      · cases e2
      · exact sound_tearDown (api := Importer.CoSim.api3 m 0 P.h) (record := P.record) (h1.imp id And.right) e2
    · exact ⟨fun h => absurd h hs, fun _ => ⟨_, _, _, _, _, _, _, hb, e, hs'⟩⟩

/-- **C82**, FMI 3.0, Model Exchange, for every FMU: if the program returns OK, then the instance was created, and the rows are those of a history in which every call
succeeded, up to the end of the simulation. -/
theorem C82_me (h : Importer.Euler.simulate3 m M P fuel n resource = .ret (.OK, rows)) :
    ∃ c l w w' o, instantiateModelExchange m (some "instance1") (some m.token) resource false true true = (some c, l) ∧
      Writes (step m 0) P.record (.fresh c) w rows ∧ step m 0 w .terminate = .ret (w', .OK, o) := by
  rcases sound_simulate3 h with ⟨-, h⟩ | ⟨c, l, hc, h, -⟩
  · cases h
  · obtain ⟨w, w', o, h1, h2⟩ := h rfl
    exact ⟨c, l, w, w', o, hc, h1, h2⟩

/-- **C82**, FMI 3.0, Model Exchange, for every FMU: if the program returns another status, then the instance could not be created or a call failed. -/
theorem C82_me_failed {s : Status} (h : Importer.Euler.simulate3 m M P fuel n resource = .ret (s, rows)) (hs : s ≠ .OK) :
    (instantiateModelExchange m (some "instance1") (some m.token) resource false true true).1 = none ∨
    ∃ c l, instantiateModelExchange m (some "instance1") (some m.token) resource false true true = (some c, l) ∧ SomeCallFails (step m 0) (.fresh c) := by
  rcases sound_simulate3 h with ⟨h, -⟩ | ⟨c, l, hc, -, h⟩
  · exact .inl h
  · exact .inr ⟨c, l, hc, h hs⟩

/-- **C82**, FMI 3.0, Model Exchange with inputs, for every FMU: if the program returns OK, then the instance was created, and the rows are those of a history in which every call
succeeded, up to the end of the simulation. -/
theorem C82_me_inputs (h : simulate3With m M P inp fuel n resource = .ret (.OK, rows)) :
    ∃ c l w w' o, instantiateModelExchange m (some "instance1") (some m.token) resource false true true = (some c, l) ∧
      Writes (step m 0) P.record (.fresh c) w rows ∧ step m 0 w .terminate = .ret (w', .OK, o) := by
  rcases sound_simulate3With h with ⟨-, h⟩ | ⟨c, l, hc, h, -⟩
  · cases h
  · obtain ⟨w, w', o, h1, h2⟩ := h rfl
    exact ⟨c, l, w, w', o, hc, h1, h2⟩

/-- **C82**, FMI 3.0, Model Exchange with inputs, for every FMU: if the program returns another status, then the instance could not be created or a call failed. -/
theorem C82_me_inputs_failed {s : Status} (h : simulate3With m M P inp fuel n resource = .ret (s, rows)) (hs : s ≠ .OK) :
    (instantiateModelExchange m (some "instance1") (some m.token) resource false true true).1 = none ∨
    ∃ c l, instantiateModelExchange m (some "instance1") (some m.token) resource false true true = (some c, l) ∧ SomeCallFails (step m 0) (.fresh c) := by
  rcases sound_simulate3With h with ⟨h, -⟩ | ⟨c, l, hc, -, h⟩
  · exact .inl h
  · exact .inr ⟨c, l, hc, h hs⟩

/-- With the wrong number of states the program of Dahlquist fails: it records nothing. -/
example : ∃ rows, Importer.Euler.simulate3 (Dahlquist.model : Model XRat _) ⟨2, 0⟩ dahlquist3 10 10 none = .ret (.Error, rows) ∧ rows.length = 0 := by
  obtain ⟨⟨s, rows⟩, e, h⟩ := Outcome.exists_of_is (r := Importer.Euler.simulate3 (Dahlquist.model : Model XRat _) ⟨2, 0⟩ dahlquist3 10 10 none)
    (p := fun x => decide (x.1 = .Error ∧ x.2.length = 0)) (by decide +kernel)
  simp only [decide_eq_true_eq] at h
  exact ⟨rows, by rw [e, h.1], h.2⟩

/-- With the right one it succeeds; the programs with inputs do so by `C66_inputs`. -/
example : ∃ rows, Importer.Euler.simulate3 (Dahlquist.model : Model XRat _) ⟨1, 0⟩ dahlquist3 10 200 none = .ret (.OK, rows) ∧ rows.length = 101 := by
  obtain ⟨⟨s, rows⟩, e, h⟩ := Outcome.exists_of_is (r := Importer.Euler.simulate3 (Dahlquist.model : Model XRat _) ⟨1, 0⟩ dahlquist3 10 200 none)
    (p := fun x => decide (x.1 = .OK ∧ x.2.length = 101)) (by decide +kernel)
  simp only [decide_eq_true_eq] at h
  exact ⟨rows, by rw [e, h.1], h.2⟩

end FMI3
end Verif
