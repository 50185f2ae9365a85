import Verif.Lemmas.StateSpaceProgram

/-!
# C65 for StateSpace: the simulation program writes the explicit Euler solution
-/

namespace Verif
open Importer.CoSim

namespace FMI3

/-- The outputs of StateSpace after `n` solver steps from its start values on: `y = 1.001ⁿ (1, 2, 3)`. -/
def outputs (n : Nat) : List XRat := LinearSystem.vector fun i => (1001 / 1000) ^ n * (i + 1)

theorem outputs_eq (n : Nat) : LinearSystem.vector (LinearSystem.next^[n] startSystem).out = outputs n := by
  rw [next_unit n rfl rfl]
  unfold outputs
  congr 1
  funext i
  simp only [startSystem, LinearSystem.out, dot_unit]
  ring

/-- **C65** for StateSpace: if the stop time is a multiple of the communication step size, then the program returns `fmi3OK` and writes
one row for each communication point `0, h, 2 h, …, N h`, with the three outputs of the FMU after `n k` solver steps of size 0.001, the time
of which is less than a solver step behind `k h` and not ahead of it by more than the tolerance. -/
theorem C65_stateSpace {h : Rat} (h0 : 0 < h) {N K fuel n : Nat} (hK : 2 * (N * h) + 1 ≤ K * (1 / 1000 : Rat)) (hf : K < fuel)
    (hb : fuel * N + K < 2 ^ 64) (hn : N < n) (resource : Ptr UInt8) :
    ∃ steps : Nat → Nat, (∀ k ≤ N, Near (1 / 1000) (k * h) (steps k * (1 / 1000))) ∧
      simulateStateSpace (.fin h) (.fin (N * h)) fuel n resource =
        .ret (.OK, (List.range (N + 1)).map fun k => ⟨.fin (k * h), [outputs (steps k)]⟩) := by
  obtain ⟨c, l, w, hc, ha, hl⟩ := StateSpace.live_start (N * h) resource (h := h) fuel
  obtain ⟨steps, h1, h2⟩ := StateSpace.loop_rows h0 hK hb hf (p := n) (Nat.zero_le _) (by omega) hl (rows := [])
  refine ⟨steps, fun k hk => h1 k (Nat.zero_le _) hk, ?_⟩
  unfold simulateStateSpace
  simp only []
  rw [hc]
  simp only []
  rw [CALLS_ok ha, h2]
  simp only [outputs_eq, List.nil_append, List.range_eq_range', Nat.sub_zero]

/-- **C65** for StateSpace, the values: if the communication step size is `q` times the solver step size 0.001, and the program ends before
99.999 (at which the relative tolerance 1e-5 reaches the solver step size), then the row for `k h` contains the outputs after `k q` solver steps. -/
theorem C65_stateSpace_rows {q : Nat} (hq : 0 < q) {N K fuel n : Nat} (hN : N * q < 99999) (hK : 2 * (N * q) + 1000 ≤ K) (hf : K < fuel)
    (hb : fuel * N + K < 2 ^ 64) (hn : N < n) (resource : Ptr UInt8) :
    simulateStateSpace (.fin (q / 1000)) (.fin (N * (q / 1000))) fuel n resource =
      .ret (.OK, (List.range (N + 1)).map fun (k : Nat) => ⟨.fin (k * (q / 1000)), [outputs (k * q)]⟩) := by
  have hq' : (0 : Rat) < q := by exact_mod_cast hq
  obtain ⟨steps, h1, h2⟩ := C65_stateSpace (h := q / 1000) (by linarith) (N := N) (K := K)
    (by
      have : (2 * (N * q) + 1000 : Rat) ≤ K := by exact_mod_cast hK
      linarith) hf hb hn resource
  rw [h2]
  congr 2
  apply List.map_congr_left
  intro k hk
  rw [List.mem_range] at hk
  suffices steps k = k * q by rw [this]
  have hkq : k * q ≤ N * q := Nat.mul_le_mul_right q (by omega)
  obtain ⟨h3, h4⟩ := h1 k (by omega)
  have e1 : k * q < steps k + 1 := by
    have : ((k * q : Nat) : Rat) < (steps k + 1 : Nat) := by push_cast; linarith
    exact_mod_cast this
  refine Nat.le_antisymm ?_ (by omega)
  by_contra hlt
  have hlt : k * q + 1 ≤ steps k := by omega
  have e2 : (k : Rat) * q + 1 ≤ steps k := by exact_mod_cast hlt
  have e3 : (k : Rat) * q ≤ 99998 := by exact_mod_cast (show k * q ≤ 99998 by omega)
  have e4 : (0 : Rat) ≤ k * q := by exact_mod_cast Nat.zero_le (k * q)
  rcases h4 with h4 | h4 | h4
  · linarith
  · rw [abs_of_nonneg (by linarith)] at h4
    unfold tol at h4
    linarith
  · rw [abs_of_nonneg (by linarith), abs_of_nonneg (by linarith), abs_of_nonneg (by linarith), max_eq_left (by linarith)] at h4
    unfold tol at h4
    linarith

/-- The program with the constants of StateSpace/config.h: 10001 rows, the last one at 10 after 10000 solver steps. -/
example (resource : Ptr UInt8) : simulateStateSpace (Arith.lit (1 / 1000)) (Arith.lit 10) 22001 10001 resource =
    .ret (.OK, (List.range 10001).map fun (k : Nat) => ⟨.fin (k * (1 / 1000)), [outputs k]⟩) := by
  have := C65_stateSpace_rows (q := 1) (by decide) (N := 10000) (K := 22000) (fuel := 22001) (n := 10001) (by decide) (by decide) (by decide)
    (by decide) (by decide) resource
  simp only [Nat.cast_one, Nat.mul_one] at this
  rw [← this]
  congr 1
  decide +kernel

/-- The first rows, computed with the model. -/
example : (simulateStateSpace (XRat.fin (1 / 1000)) (.fin (2 / 1000)) 100 3 none).is (fun x => decide (x.1 = .OK) &&
    decide (x.2 = [⟨.fin 0, [[.fin 1, .fin 2, .fin 3]]⟩, ⟨.fin (1 / 1000), [[.fin (1001 / 1000), .fin (2002 / 1000), .fin (3003 / 1000)]]⟩,
      ⟨.fin (2 / 1000), [[.fin (1002001 / 1000000), .fin (2004002 / 1000000), .fin (3006003 / 1000000)]]⟩])) = true := by
  decide +kernel

end FMI3
end Verif
