import Verif.Lemmas.DriverStateSpaceX
import Verif.Props.C66StateSpace
import Verif.Props.C78Meant

/-!
# C27 and C78 for StateSpace: the Model Exchange program with the number of continuous states of the instance
-/

namespace Verif
open Importer.CoSim

namespace FMI3
section
variable {F : Type} [Arith F] [HasInf F]

/-- The rows of the program with `NX = 3`, in any arithmetic. -/
theorem stateSpace_three {stop : F} {N : Nat} (hN : N < 2 ^ 64) (hstop : ∀ k ≤ N, (stop <=. timeAfter (Arith.lit (1 / 1000)) k) = decide (k = N))
    (hfin : ∀ k ≤ N, ((HasInf.inf : F) <=. timeAfter (Arith.lit (1 / 1000)) k) = false) {fuel n : Nat} (hf : 0 < fuel) (hn : N < n) (resource : Ptr UInt8) :
    ∃ ctx mv, Importer.Euler.simulateStateSpace ⟨3, 0⟩ (Arith.lit (1 / 1000)) stop fuel n resource =
      .ret (.OK, (List.range (N + 1)).map (StateSpace.row (StateSpace.setStartValues ctx mv).data)) := by
  obtain ⟨fuel, rfl⟩ : ∃ f, fuel = f + 1 := ⟨fuel - 1, by omega⟩
  obtain ⟨c, l, w, ctx, mv, hc, ht, ha, start⟩ := stateSpace_startedME (Arith.lit (1 / 1000)) stop resource
  refine ⟨ctx, mv, ?_⟩
  obtain ⟨s, e1, k1⟩ := StateSpace.initial_at ht start (hh := Arith.lit (1 / 1000)) (stop := stop) (fuel := fuel)
  obtain ⟨s', e2, k2⟩ := StateSpace.passes_at ht k1 hN hfin hstop (hh := Arith.lit (1 / 1000)) (fuel := fuel + 1) n
  rw [decide_eq_false (by omega)] at e2
  rw [Nat.min_eq_right (by omega)] at k2
  obtain ⟨w', o, et⟩ := (StateSpace.drives ht (h := Arith.lit (1 / 1000)) (stop := stop)).stop k2.still
  have et' : (apiStateSpace StateSpace.model 0 (Arith.lit (1 / 1000))).call s'.w.w (apiStateSpace StateSpace.model 0 (Arith.lit (1 / 1000))).terminate = .ret (w', .OK, []) := by
    simp only [apiStateSpace, et, Outcome.ret_bind]
  unfold Importer.Euler.simulateStateSpace
  simp only []
  rw [hc]
  simp only []
  rw [CALLS_ok ha]
  simp only [Importer.Euler.simulate]
  rw [e1]
  simp only [Outcome.ret_bind, if_true, e2, Bool.false_eq_true, if_false, k2.status]
  rw [tearDown_ok et', k2.rows]

end

/-- **C78** for the Model Exchange program of StateSpace, if the macro `NX` had the number of continuous states of the instance (3, not `MAX_CONTINUOUS_STATES`): the
program ends without error, and row `k` shows the outputs `1.001ᵏ (1, 2, 3)` after `k` explicit Euler steps. -/
theorem C78_stateSpace_three_partial {N : Nat} (hN : N < 2 ^ 64) {fuel n : Nat} (hf : 0 < fuel) (hn : N < n) (resource : Ptr UInt8) :
    Importer.Euler.simulateStateSpace ⟨3, 0⟩ (XRat.fin (1 / 1000)) (.fin (N * (1 / 1000))) fuel n resource =
      .ret (.OK, (List.range (N + 1)).map fun (k : Nat) => ⟨.fin (k * (1 / 1000)), [LinearSystem.vector fun i => (1001 / 1000) ^ k * (i + 1)]⟩) := by
  obtain ⟨ctx, mv, e⟩ := stateSpace_three (F := XRat) (stop := .fin (N * (1 / 1000))) hN (stop_multiple (by decide +kernel) rfl) (fun k _ => finite_times k) hf hn resource
  rw [show (Arith.lit (1 / 1000) : XRat) = .fin (1 / 1000) from rfl] at e
  rw [e]
  congr 2
  apply List.map_congr_left
  intro k _
  have hh := (start_holds ctx mv).eulers k
  unfold StateSpace.row
  rw [StateSpace.elems_vector hh.out, outputs_eq, show (Arith.lit (1 / 1000) : XRat) = .fin (1 / 1000) from rfl, timeAfter_fin]
  rfl

/-- **C27** for the example programs of StateSpace, if the macro `NX` had the number of continuous states of the instance: the program for Model Exchange and the
program for Co-Simulation with the communication step size of the solver write the same rows (up to 99.998, where the relative tolerance of the FMU for the last communication
point reaches the solver step size). -/
theorem C27_stateSpace_partial {N K fuel fuel' n n' : Nat} (hN : N < 99999) (hK : 2 * N + 1000 ≤ K) (hf : K < fuel) (hb : fuel * N + K < 2 ^ 64) (hn : N < n)
    (hf' : 0 < fuel') (hn' : N < n') (resource : Ptr UInt8) :
    Importer.Euler.simulateStateSpace ⟨3, 0⟩ (XRat.fin (1 / 1000)) (.fin (N * (1 / 1000))) fuel' n' resource =
      Importer.CoSim.simulateStateSpace (XRat.fin (1 / 1000)) (.fin (N * (1 / 1000))) fuel n resource := by
  have e := C65_stateSpace_rows (q := 1) (by decide) (N := N) (K := K) (fuel := fuel) (n := n) (by omega) (by omega) hf hb hn resource
  simp only [Nat.cast_one, Nat.mul_one] at e
  rw [C78_stateSpace_three_partial (by omega) hf' hn' resource, e]
  rfl

/-- The numbers of the example program. -/
example (resource : Ptr UInt8) : Importer.Euler.simulateStateSpace ⟨3, 0⟩ (XRat.fin (1 / 1000)) (.fin 10) 1 10001 resource =
    .ret (.OK, (List.range 10001).map fun (k : Nat) => ⟨.fin (k * (1 / 1000)), [LinearSystem.vector fun i => (1001 / 1000) ^ k * (i + 1)]⟩) := by
  have := C78_stateSpace_three_partial (N := 10000) (by decide) (fuel := 1) (n := 10001) (by decide) (by decide) resource
  rwa [show ((10000 : Nat) : Rat) * (1 / 1000) = 10 by norm_num] at this

example (resource : Ptr UInt8) : Importer.Euler.simulateStateSpace ⟨3, 0⟩ (XRat.fin (1 / 1000)) (.fin 10) 1 10001 resource =
    Importer.CoSim.simulateStateSpace (XRat.fin (1 / 1000)) (.fin 10) 30000 10001 resource := by
  have := C27_stateSpace_partial (N := 10000) (K := 21000) (fuel := 30000) (fuel' := 1) (n := 10001) (n' := 10001) (by decide) (by decide) (by decide) (by decide) (by decide)
    (by decide) (by decide) resource
  rwa [show ((10000 : Nat) : Rat) * (1 / 1000) = 10 by norm_num] at this

end FMI3
end Verif
