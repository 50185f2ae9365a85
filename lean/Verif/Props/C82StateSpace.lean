import Verif.Props.C82
import Verif.Props.C82ME
import Verif.Importer.StateSpaceME

/-!
# C82 The status of the programs of StateSpace

See properties.jsonl. The program records the outputs in a function of its own, which is a call here.
-/

namespace Verif
open Importer.CoSim

namespace FMI3
variable {F : Type} [Arith F] [HasInf F] {h stopTime : F} {fuel n : Nat} {resource : Ptr UInt8} {rows : List (Row F (List F))}

theorem call_apiStateSpace {D : Type} {m : Model F D} {w w' : World F D} {op : Op F} {s : Status} {o : Out F} (e : step m fuel w op = .ret (w', s, o)) :
    (apiStateSpace m fuel h).call w (.call op) = .ret (w', s, []) := by
  show (step m fuel w op >>- fun (w, s, _) => .ret (w, s, [])) = _
  rw [e]; rfl

/-- **C82**, FMI 3.0, StateSpace. -/
theorem C82_stateSpace (hr : Importer.CoSim.simulateStateSpace h stopTime fuel n resource = .ret (.OK, rows)) :
    ∃ c l w₀ vs, instantiateCoSimulation (StateSpace.model : Model F _) (some "instance1") (some (StateSpace.model : Model F _).token) resource false false false true false true =
        (some c, l) ∧
      AllOK (apiStateSpace StateSpace.model fuel h).call (.fresh c) [.call (.enterInitializationMode (Arith.lit 0) true stopTime), .call .exitInitializationMode] w₀ vs ∧
      Completed (apiStateSpace StateSpace.model fuel h).call (GoesOn StateSpace.model fuel h) (EndsAt StateSpace.model fuel h) (.call .terminate)
        (programStateSpace h stopTime) w₀ rows := by
  unfold Importer.CoSim.simulateStateSpace at hr
  simp only [] at hr
  split at hr
  · cases hr
  · next c l hc =>
    rcases CALLS_ret hr with ⟨w₀, vs, ha, e⟩ | ⟨h, -⟩
    · refine ⟨c, l, w₀, vs, hc, ha, loop_ok (api := apiStateSpace StateSpace.model fuel h) ?_ ?_ ?_ .zero (fun j hj => by omega) e⟩
      · intro w t w' e
        obtain ⟨r, e1, e2⟩ := advance3_ret e
        split at e2
        · cases e2
        · next hr => exact ⟨r, e1, hr⟩
      · intro w t w' e
        obtain ⟨r, e1, e2⟩ := advance3_ret e
        split at e2
        · next hr => exact ⟨r, e1, hr, rfl⟩
        · cases e2
      · intro w t w₁ w' t' vs e
        obtain ⟨r, e1, e2⟩ := advance3_ret e
        split at e2 <;> cases e2
    · exact absurd rfl h

/-- **C82**, FMI 3.0, StateSpace, another status. -/
theorem C82_stateSpace_failed {s : Status} (hr : Importer.CoSim.simulateStateSpace h stopTime fuel n resource = .ret (s, rows)) (hs : s ≠ .OK) :
    (instantiateCoSimulation (StateSpace.model : Model F _) (some "instance1") (some (StateSpace.model : Model F _).token) resource false false false true false true).1 = none ∨
    ∃ c l, instantiateCoSimulation (StateSpace.model : Model F _) (some "instance1") (some (StateSpace.model : Model F _).token) resource false false false true false true =
        (some c, l) ∧ SomeCallFails (apiStateSpace StateSpace.model fuel h).call (.fresh c) := by
  unfold Importer.CoSim.simulateStateSpace at hr
  simp only [] at hr
  split at hr
  · next hc => exact .inl (by rw [hc])
  · next c l hc =>
    refine .inr ⟨c, l, hc, ?_⟩
    rcases CALLS_ret hr with ⟨w₀, vs, ha, e⟩ | ⟨-, -, pre, w₁, us, op, w', s', v, hb, e, hs'⟩
    · refine loop_failed (api := apiStateSpace StateSpace.model fuel h) ?_ ha hs e
      intro ops w vs t w' s next hw e
      obtain ⟨r, e1, -⟩ := advance3_ret e
      have e1 := call_apiStateSpace (h := h) e1
      by_cases hs : s = .OK
      · subst hs
        exact .inl ⟨rfl, _, _, hw.append (.cons e1 .nil)⟩
      · exact .inr ⟨_, _, _, _, _, _, _, hw, e1, hs⟩
    · exact ⟨_, _, _, _, _, _, _, hb, e, hs'⟩

theorem calls_stateSpace {D : Type} {m : Model F D} : CallsApi (apiStateSpace m 0 h).call (Importer.Euler.api3 m []) := by
  constructor <;> intros <;> next h => obtain ⟨⟨w1, s1, o⟩, e1, e2⟩ := Outcome.bind_eq_ret.1 h; cases e2; exact ⟨_, _, call_apiStateSpace e1⟩

theorem sound_simulateStateSpace {M : Importer.Euler.Macros} {s : Status} (hr : Importer.Euler.simulateStateSpace M h stopTime fuel n resource = .ret (s, rows)) :
    (instantiateModelExchange (StateSpace.model : Model F _) (some "instance1") (some (StateSpace.model : Model F _).token) resource false true true).1 = none ∧ s = .Error ∨
    ∃ c l, instantiateModelExchange (StateSpace.model : Model F _) (some "instance1") (some (StateSpace.model : Model F _).token) resource false true true = (some c, l) ∧
      (s = .OK → ∃ w w' o, Writes (apiStateSpace StateSpace.model 0 h).call [.recordVariables] (.fresh c) w rows ∧
        (apiStateSpace StateSpace.model 0 h).call w (.call .terminate) = .ret (w', .OK, o)) ∧
      (s ≠ .OK → SomeCallFails (apiStateSpace StateSpace.model 0 h).call (.fresh c)) := by
  unfold Importer.Euler.simulateStateSpace at hr
  simp only [] at hr
  split at hr
  · next hc => cases hr; exact .inl ⟨by rw [hc], rfl⟩
  · next c l hc =>
    refine .inr ⟨c, l, hc, ?_⟩
    rcases CALLS_ret hr with ⟨w₀, vs, ha, e⟩ | ⟨hs, -, pre, w₁, us, op, w', s', v, hb, e, hs'⟩
    · obtain ⟨⟨b, s1⟩, e1, e2⟩ := Outcome.bind_eq_ret.1 e
      have h1 := sound_simulate (w₀ := World.fresh c) calls_stateSpace
        (⟨rfl, Writes.start.calls ha⟩ : Clean (apiStateSpace StateSpace.model 0 h).call [.recordVariables] (World.fresh c) ⟨w₀, .OK, Arith.lit 0, []⟩) _ e1
      simp only [] at e2
      split at e2
      · cases e2
      · exact sound_tearDown (api := apiStateSpace StateSpace.model 0 h) (record := [.recordVariables]) (h1.imp id And.right) e2
    · exact ⟨fun h => absurd h hs, fun _ => ⟨_, _, _, _, _, _, _, hb, e, hs'⟩⟩

/-- **C82**, FMI 3.0, Model Exchange, StateSpace. -/
theorem C82_me_stateSpace {M : Importer.Euler.Macros} (hr : Importer.Euler.simulateStateSpace M h stopTime fuel n resource = .ret (.OK, rows)) :
    ∃ c l w w' o, instantiateModelExchange (StateSpace.model : Model F _) (some "instance1") (some (StateSpace.model : Model F _).token) resource false true true = (some c, l) ∧
      Writes (apiStateSpace StateSpace.model 0 h).call [.recordVariables] (.fresh c) w rows ∧
      (apiStateSpace StateSpace.model 0 h).call w (.call .terminate) = .ret (w', .OK, o) := by
  rcases sound_simulateStateSpace hr with ⟨-, h⟩ | ⟨c, l, hc, h, -⟩
  · cases h
  · obtain ⟨w, w', o, h1, h2⟩ := h rfl
    exact ⟨c, l, w, w', o, hc, h1, h2⟩

/-- **C82**, FMI 3.0, Model Exchange, StateSpace, another status. -/
theorem C82_me_stateSpace_failed {M : Importer.Euler.Macros} {s : Status} (hr : Importer.Euler.simulateStateSpace M h stopTime fuel n resource = .ret (s, rows)) (hs : s ≠ .OK) :
    (instantiateModelExchange (StateSpace.model : Model F _) (some "instance1") (some (StateSpace.model : Model F _).token) resource false true true).1 = none ∨
    ∃ c l, instantiateModelExchange (StateSpace.model : Model F _) (some "instance1") (some (StateSpace.model : Model F _).token) resource false true true = (some c, l) ∧
      SomeCallFails (apiStateSpace StateSpace.model 0 h).call (.fresh c) := by
  rcases sound_simulateStateSpace hr with ⟨h, -⟩ | ⟨c, l, hc, -, h⟩
  · exact .inl h
  · exact .inr ⟨c, l, hc, h hs⟩

/-- The programs succeed (C65, C66); the Model Exchange program fails with the number of states that it is meant to have, see C66. -/
example : (Importer.CoSim.simulateStateSpace (XRat.fin (1 / 1000)) (.fin (2 / 1000)) 100 3 none).is (fun x => decide (x.1 = .OK) && decide (x.2.length = 3)) = true := by
  decide +kernel

example : (Importer.CoSim.simulateStateSpace (XRat.fin (3 / 1000)) (.fin (5 / 1000)) 100 3 none).is (fun x => decide (x.1 = .Error) && decide (x.2.length = 2)) = true := by
  decide +kernel

example : (Importer.Euler.simulateStateSpace ⟨3, 0⟩ (XRat.fin (1 / 1000)) (.fin (2 / 1000)) 100 100 none).is (fun x => decide (x.1 = .OK) && decide (x.2.length = 3)) = true := by
  decide +kernel

example : (Importer.Euler.simulateStateSpace (.meant (StateSpace.model : Model XRat _)) (XRat.fin (1 / 1000)) (.fin (2 / 1000)) 100 100 none).is
    (fun x => decide (x.1 = .Error) && decide (x.2.length = 0)) = true := by
  decide +kernel

end FMI3
end Verif
