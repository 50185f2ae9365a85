import Verif.Props.C65StateSpace
import Verif.Props.C65Refused

/-!
# C65 for StateSpace: the program fails if the stop time is not a multiple of the communication step size
-/

namespace Verif
open Importer.CoSim

namespace FMI3

/-- The last step is refused. -/
theorem Live_refused {s : LinearSystem} {h stop : Rat} {fuel N : Nat} (h0 : 0 < h) (h1 : stop < (N + 1) * h) (h2 : ¬Close ((N + 1) * h) stop)
    {w : World XRat (StateSpace.Data XRat)} (hr : StateSpace.Live s h stop fuel N w) :
    ∃ w' r, FMI3.step StateSpace.model fuel w (.doStep (.fin (N * h)) (.fin h) ⟨some false, some false, some false, some (Arith.lit 0)⟩) = .ret (w', .Error, .step r) := by
  have ha : allowed w.inst.ctx MASK_DoStep = true := (FMI3.allowed_fn _ .doStep).2 (by rw [hr.state]; decide)
  have hc := hr.clock
  have k1 : w.inst.nextCommunicationPoint = .fin (N * h) := congrArg Clock.expected hc
  have k2 : w.inst.stopTime = .fin stop := congrArg Clock.stop hc
  have k3 : isClose (XRat.fin (N * h)) (.fin (N * h)) = true := (isClose_fin _ _).2 (.refl _)
  have k4 : (XRat.fin h <=. (Arith.lit 0 : XRat)) = false := by
    change decide (h ≤ 0) = false
    simpa using h0
  have k5 := refuses (k := w.inst.clock) (a := N * h) (h := h) (stop := stop) (by rw [hc]) (by linarith) (by rwa [show (N * h + h : Rat) = (N + 1) * h by ring])
  rw [show w.inst.clock.stop = w.inst.stopTime from rfl, k2] at k5
  simp only [FMI3.step, World.run, FMI3.doStep, begin, beginFunction, ha, k1, k2, k3, k4, k5, Bool.not_true, Bool.false_eq_true, if_false, if_true, fail,
    Outcome.ret_bind]
  exact ⟨_, _, rfl⟩

theorem loop_refused {s : LinearSystem} {h stop : Rat} (h0 : 0 < h) {N K fuel : Nat} (hK : 2 * (N * h) + 1 ≤ K * (1 / 1000 : Rat)) (hb : fuel * N + K < 2 ^ 64)
    (hf : K < fuel) (h1 : N * h < stop) (h2 : stop < (N + 1) * h) (h3 : ¬Close ((N + 1) * h) stop) :
    ∀ {p k : Nat} {w : World XRat (StateSpace.Data XRat)} {rows : List (Row XRat (List XRat))}, k ≤ N → N < k + p → StateSpace.Live s h stop fuel k w →
    ∃ n : Nat → Nat, (∀ j, k ≤ j → j ≤ N → Near (1 / 1000) (j * h) (n j * (1 / 1000))) ∧
      loop (apiStateSpace StateSpace.model fuel (.fin h)) (programStateSpace (.fin h) (.fin stop)) p k w rows =
        .ret (.Error, rows ++ (List.range' k (N + 1 - k)).map fun j => ⟨.fin (j * h), [LinearSystem.vector (LinearSystem.next^[n j] s).out]⟩) := by
  intro p
  induction p with
  | zero => intro k w rows h1 h2; omega
  | succ p ih =>
    intro k w rows hk hp hw
    obtain ⟨w1, e1, l1, n1⟩ := hw.record fuel
    have hrow : (List.range' k (N + 1 - k)) = k :: List.range' (k + 1) (N - k) := by
      rw [show N + 1 - k = (N - k) + 1 by omega]; rfl
    have a1 : AllOK (apiStateSpace StateSpace.model fuel (.fin h)).call w [.recordVariables] w1
        [LinearSystem.vector (LinearSystem.next^[w.inst.nSteps] s).out] := .cons e1 .nil
    have hstop := not_stop (P := programStateSpace (.fin h) (.fin stop)) (h := h) rfl h0 rfl h1 k hk
    unfold loop
    simp only []
    rw [show (programStateSpace (XRat.fin h) (.fin stop)).record = [.recordVariables] from rfl, CALLS_ok a1]
    change ∃ n : Nat → Nat, _ ∧ (if (XRat.fin stop <=. .fin (k * h)) = true then _ else _) = _
    rw [show (XRat.fin stop <=. .fin (k * h)) = false from hstop, if_neg (by simp)]
    by_cases hkN : k = N
    · subst hkN
      obtain ⟨w2, r, e2⟩ := Live_refused h0 h2 h3 l1
      refine ⟨fun _ => w.inst.nSteps, ?_, ?_⟩
      · intro j h1 h2
        obtain rfl : j = k := by omega
        exact hw.near
      · change (advance3 StateSpace.model fuel (.fin h) w1 (.fin (k * h)) >>- _) = _
        rw [advance3, e2, hrow, show k - k = 0 by omega]; rfl
    · obtain ⟨w2, r, e2, hr, l2⟩ := l1.doStep h0 hK hb hf (by omega) h1.le
      obtain ⟨n, hn, hl⟩ := ih (rows := rows ++ [⟨.fin (k * h), [LinearSystem.vector (LinearSystem.next^[w.inst.nSteps] s).out]⟩])
        (by omega) (by omega) l2
      refine ⟨fun j => if j = k then w.inst.nSteps else n j, ?_, ?_⟩
      · intro j h1 h2
        by_cases hj : j = k
        · subst hj; simpa using hw.near
        · simp only [if_neg hj]; exact hn j (by omega) h2
      · change (advance3 StateSpace.model fuel (.fin h) w1 (.fin (k * h)) >>- _) = _
        simp only [advance3, e2, Outcome.ret_bind, hr]
        simp only [if_true, Option.some.injEq, Bool.false_eq_true, if_false]
        refine hl.trans ?_
        rw [hrow, List.append_assoc, show N + 1 - (k + 1) = N - k by omega]
        congr 3
        simp only [List.map_cons, if_true, List.singleton_append]
        congr 1
        apply List.map_congr_left
        intro j hj
        rw [List.mem_range'_1] at hj
        rw [if_neg (by omega)]

/-- **C65** for StateSpace, the other stop times: if the stop time lies between the multiples `N h` and `(N + 1) h` of the communication step size, and is not close to `(N + 1) h`, then the program ends with
`fmi3Error`. It has written the rows for the communication points `0, h, …, N h`, with the outputs of the FMU as in `C65_stateSpace`, and none for the rest of the simulated time. -/
theorem C65_refused_stateSpace {h stop : Rat} (h0 : 0 < h) {N K fuel n : Nat} (h1 : N * h < stop) (h2 : stop < (N + 1) * h) (h3 : ¬Close ((N + 1) * h) stop)
    (hK : 2 * (N * h) + 1 ≤ K * (1 / 1000 : Rat)) (hf : K < fuel) (hb : fuel * N + K < 2 ^ 64) (hn : N < n) (resource : Ptr UInt8) :
    ∃ steps : Nat → Nat, (∀ k ≤ N, Near (1 / 1000) (k * h) (steps k * (1 / 1000))) ∧
      simulateStateSpace (.fin h) (.fin stop) fuel n resource =
        .ret (.Error, (List.range (N + 1)).map fun k => ⟨.fin (k * h), [outputs (steps k)]⟩) := by
  obtain ⟨c, l, w, hc, ha, hl⟩ := StateSpace.live_start stop resource (h := h) fuel
  obtain ⟨steps, e1, e2⟩ := loop_refused h0 hK hb hf h1 h2 h3 (p := n) (Nat.zero_le _) (by omega) hl (rows := [])
  refine ⟨steps, fun k hk => e1 k (Nat.zero_le _) hk, ?_⟩
  unfold simulateStateSpace
  simp only []
  rw [hc]
  simp only []
  rw [CALLS_ok ha, e2]
  simp only [outputs_eq, List.nil_append, List.range_eq_range', Nat.sub_zero]

/-- The step size 1/5 up to 1.1, which is not a multiple of it. -/
example (resource : Ptr UInt8) : ∃ rows, simulateStateSpace (XRat.fin (1 / 5)) (.fin (11 / 10)) 3101 6 resource = .ret (.Error, rows) ∧ rows.length = 6 := by
  obtain ⟨steps, -, e⟩ := C65_refused_stateSpace (h := 1 / 5) (stop := 11 / 10) (by norm_num) (N := 5) (K := 3100) (fuel := 3101) (n := 6) (by norm_num) (by norm_num)
    (by
      unfold Close tol
      rw [abs_of_nonneg (by norm_num), abs_of_nonneg (by norm_num), abs_of_nonneg (by norm_num), max_eq_left (by norm_num)]
      norm_num) (by norm_num) (by decide) (by decide) (by decide) resource
  exact ⟨_, e, by simp⟩

end FMI3

end Verif
