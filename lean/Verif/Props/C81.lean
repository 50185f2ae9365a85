import Verif.Lemmas.FeedthroughRun
import Verif.Props.C65

/-!
# C81 What the programs for Feedthrough record

See properties.jsonl. `Verif.FeedthroughRows` has the signals that the programs feed into the FMU and the rows that show them.
-/

set_option linter.unusedSectionVars false

namespace Verif
open Importer.CoSim FeedthroughRows

theorem feedthrough_value (t : Rat) : Importer.CoSim.Feedthrough.value (XRat.fin t) = .fin (signal false t) := by
  unfold Importer.CoSim.Feedthrough.value signal
  change (if decide (t < 1 / 2) = true then XRat.fin 0 else if decide (t ≤ 1 / 2) = true then XRat.fin 0 else if decide (t < 1) = true then
    XRat.fin (2 - 2 * (t - 1 / 2)) else XRat.fin 1) = _
  simp only [decide_eq_true_eq, Bool.false_eq_true, if_false]
  by_cases h1 : t < 1 / 2
  · rw [if_pos h1, if_pos h1]
  · rw [if_neg h1, if_neg h1]
    by_cases h2 : t ≤ 1 / 2
    · rw [if_pos h2, if_pos (le_antisymm h2 (not_lt.1 h1))]
    · rw [if_neg h2, if_neg (fun h : t = 1 / 2 => h2 h.le)]
      by_cases h3 : t < 1
      · rw [if_pos h3, if_pos h3]; congr 1; ring
      · rw [if_neg h3, if_neg h3]

theorem phaseAt_fin (t : Rat) : phaseAt (XRat.fin t) = phase t := by
  unfold phaseAt phase
  change (if decide (t < 1) = true then Phase.before else .after) = _
  simp only [decide_eq_true_eq]

theorem shows_start3 : Feedthrough.shows3 (Feedthrough.startData : Feedthrough.Data XRat) = row3 0 (.fin 0) .start := by
  have k1 : Feedthrough.ascii "Set me!" = "Set me!".toUTF8.toList := by decide +kernel
  have k2 : Feedthrough.ascii "foo" = "foo".toUTF8.toList := by decide +kernel
  unfold Feedthrough.shows3 Feedthrough.startData row3 Phase.pick
  rw [k1, k2]
  simp only []
  rw [show "foo".toUTF8.toList.length = 3 by decide +kernel]
  rfl

theorem shows_start2 : Feedthrough.shows2 (Feedthrough.startData : Feedthrough.Data XRat) = row2 (.fin 0) (.fin 0) .start := by
  have k1 : Feedthrough.ascii "Set me!" = "Set me!".toUTF8.toList := by decide +kernel
  unfold Feedthrough.shows2 Feedthrough.startData row2 Phase.pick
  rw [k1]
  rfl

namespace FMI3

/-- **C81**, Co-Simulation with FMI 3.0. The program runs to completion. The row for the communication point `(k + 1) h` shows the values that the
inputs were given at the point before: the outputs of the FMU lag one communication step behind the signals, which are otherwise not changed. -/
theorem C81 (f32 : XRat → UInt32) {h : Rat} (h0 : 0 < h) {N fuel K n : Nat} (hK : 2 * (N * h) + 1 ≤ K * (1 / 10)) (hf : K < fuel)
    (hb : fuel * N + K < 2 ^ 64) (hn : N < n) (resource : Ptr UInt8) :
    simulate3 (Feedthrough.model true) { feedthrough3 f32 with h := .fin h, stopTime := .fin (N * h) } fuel n resource =
      .ret (.OK, ⟨.fin 0, row3 0 (.fin 0) .start⟩ :: (List.range N).map fun (k : Nat) =>
        ⟨.fin ((k + 1 : Nat) * h), row3 (f32 (.fin (signal false (k * h)))) (.fin (signal false (k * h))) (phase (k * h))⟩) := by
  obtain ⟨c, l, w₀, vs, rows, hc, ha, h1, h2⟩ := C65_partial (P := { feedthrough3 f32 with h := .fin h, stopTime := .fin (N * h) }) .feedthrough
    ⟨(fits_feedthrough f32).start, (fits_feedthrough f32).inputs, (fits_feedthrough f32).record⟩ (hh := 1 / 10) rfl rfl h0 rfl hK hf hb hn resource
    fun _ _ _ => trivial
  rw [h1]
  have hok := (RefFMU3.feedthrough (F := XRat)).eff.okOrError
  have key := h2.shows (Q := fun (s : UInt32 × XRat × Phase) w => Reachable (Feedthrough.model true) .coSimulation w ∧
      Feedthrough.shows3 w.inst.mv.data = row3 s.1 s.2.1 s.2.2) (out := fun s => row3 s.1 s.2.1 s.2.2)
    (set := fun t => (f32 (Importer.CoSim.Feedthrough.value t), Importer.CoSim.Feedthrough.value t, phaseAt t)) ?_ ?_ ?_ ?_
    (s₀ := (0, .fin 0, .start)) ⟨?_, ?_⟩
  · rw [key]
    congr 3
    · simp [Program.point]
    · apply List.map_congr_left
      intro k _
      have e : ∀ k : Nat, Program.point ({ feedthrough3 f32 with h := .fin h, stopTime := .fin (N * h) } : Program XRat _) k = .fin (k * h) := fun _ => rfl
      simp only [e, feedthrough_value, phaseAt_fin]
  · intro s w w' vs ⟨hq, hs⟩ ha
    obtain ⟨e1, e2⟩ := records_feed f32 ha
    exact ⟨e1.trans hs, ha.inv (fun hq e => hq.call hok e) hq, (Feedthrough.shows3_eq e2).trans hs⟩
  · intro s w w' vs t ⟨hq, hs⟩ ha
    refine ⟨ha.inv (fun hq e => hq.call hok e) hq, ?_⟩
    obtain ⟨w₁, u, v, ha1, ha2⟩ := AllOK.split (a := [_, _]) ha
    exact discrete_feed f32 ha2 (continuous_feed ha1 hs)
  · rintro s w t w' ⟨hq, hs⟩ ⟨r, e, -⟩
    exact ⟨hq.call hok e, (Feedthrough.shows3_eq (keep_feed (by simp [Op.fn, changes]) e)).trans hs⟩
  · rintro s w t last ⟨hq, -⟩ ⟨w₁, r, e, hr, -⟩
    have h3 : w₁.inst.mv.terminateSimulation = false := ((hq.call hok e).mv hok Timeless.feedthrough.inv ⟨rfl, rfl⟩).inst.1
    obtain ⟨-, k, c', ehn, b, -, -, rfl, ho⟩ := doStep_loop hok e
    cases ho
    simp only [Option.some.injEq] at hr
    simp only [hr] at h3
    cases h3
  · exact ha.inv (fun hq e => hq.call hok e) ⟨c, _, 0, [], [], .cs hc, ⟨rfl, fun _ => rfl, fun _ _ e => by cases e⟩, rfl⟩
  · obtain ⟨w₁, u, v, ha1, ha2⟩ := AllOK.split (a := [_]) ha
    cases ha2 with
    | cons e1 ha2 =>
      cases ha2 with
      | cons e2 ha2 =>
        cases ha2
        refine (Feedthrough.shows3_eq (keep_feed (by simp [Op.fn, changes]) e2)).trans ((Feedthrough.shows3_eq (keep_feed (by simp [Op.fn, changes]) e1)).trans
          ((start_feed ha1).trans ?_))
        cases hc
        exact shows_start3

/-- The numbers of the example program: step size 0.1 and stop time 2. -/
example (f32 : XRat → UInt32) (resource : Ptr UInt8) : simulate3 (Feedthrough.model true) (feedthrough3 f32) 51 21 resource =
    .ret (.OK, ⟨.fin 0, row3 0 (.fin 0) .start⟩ :: (List.range 20).map fun (k : Nat) => ⟨.fin ((k + 1 : Nat) * (1 / 10)),
      row3 (f32 (.fin (signal false (k * (1 / 10))))) (.fin (signal false (k * (1 / 10)))) (phase (k * (1 / 10)))⟩) := by
  have e : (feedthrough3 f32 : Program XRat (Op XRat)) = { feedthrough3 f32 with h := .fin (1 / 10), stopTime := .fin ((20 : Nat) * (1 / 10)) } := by
    have h : (feedthrough3 f32 : Program XRat (Op XRat)).stopTime = .fin ((20 : Nat) * (1 / 10)) := by change XRat.fin 2 = _; decide +kernel
    rw [← h]; rfl
  rw [e]
  exact C81 f32 (N := 20) (K := 50) (by decide +kernel) (by decide +kernel) (by decide) (by decide) (by decide) resource

/-- The row for 0.6 still shows the value at 0.5 before the jump, the row for 0.7 shows 1.8; the discrete values change in the row for 1.1. -/
example : signal false (5 * (1 / 10)) = 0 ∧ signal false (6 * (1 / 10)) = 9 / 5 ∧ phase (9 * (1 / 10)) = .before ∧ phase (10 * (1 / 10)) = .after := by
  decide +kernel

end FMI3

namespace FMI2

/-- **C81**, Co-Simulation with FMI 2.0; partial, see `C81_violated_discrete`: the discrete floating point output stays 0. The other outputs show the signals,
one communication step late. -/
theorem C81_partial {h : Rat} (h0 : 0 < h) {N fuel K n : Nat} (hK : 2 * (N * h) + 1 ≤ K * (1 / 10)) (hf : K < fuel)
    (hb : fuel * N + K < 2 ^ 64) (hn : N < n) (resource : Ptr UInt8) :
    simulate2 (Feedthrough.model false : Model XRat _) { feedthrough2 with h := .fin h, stopTime := .fin (N * h) } fuel n resource =
      .ret (.OK, ⟨XRat.fin 0, row2 (.fin 0) (.fin 0) .start⟩ :: (List.range N).map fun (k : Nat) =>
        ⟨.fin ((k + 1 : Nat) * h), row2 (.fin (signal false (k * h))) (.fin 0) (phase (k * h))⟩) := by
  obtain ⟨c, l, w₀, vs, rows, hc, ha, h1, h2⟩ := C65 (P := { feedthrough2 with h := .fin h, stopTime := .fin (N * h) }) .feedthrough
    ⟨fits_feedthrough.start, fits_feedthrough.inputs, fits_feedthrough.record⟩ (hh := 1 / 10) rfl rfl h0 rfl hK hf hb hn resource
    fun _ _ _ => trivial
  rw [h1]
  have hok := (RefFMU2.feedthrough (F := XRat)).eff.okOrError
  have key := h2.shows (Q := fun (s : XRat × Phase) w => Reachable (Feedthrough.model false) .coSimulation w ∧
      Feedthrough.shows2 w.inst.mv.data = row2 s.1 (.fin 0) s.2) (out := fun s => row2 s.1 (.fin 0) s.2)
    (set := fun t => (Importer.CoSim.Feedthrough.value t, phaseAt t)) ?_ ?_ ?_ ?_
    (s₀ := (.fin 0, .start)) ⟨?_, ?_⟩
  · rw [key]
    congr 3
    · simp [Program.point]
    · apply List.map_congr_left
      intro k _
      have e : ∀ k : Nat, Program.point ({ feedthrough2 with h := .fin h, stopTime := .fin (N * h) } : Program XRat _) k = .fin (k * h) := fun _ => rfl
      simp only [e, feedthrough_value, phaseAt_fin]
  · intro s w w' vs ⟨hq, hs⟩ ha
    obtain ⟨e1, e2⟩ := records_feed ha
    exact ⟨e1.trans hs, ha.inv (fun hq e => hq.call hok e) hq, (Feedthrough.shows2_eq e2).trans hs⟩
  · intro s w w' vs t ⟨hq, hs⟩ ha
    refine ⟨ha.inv (fun hq e => hq.call hok e) hq, ?_⟩
    obtain ⟨w₁, u, v, ha1, ha2⟩ := AllOK.split (a := [_]) ha
    exact discrete_feed ha2 (continuous_feed ha1 hs)
  · rintro s w t w' ⟨hq, hs⟩ ⟨r, e⟩
    exact ⟨hq.call hok e, (Feedthrough.shows2_eq (keep_feed (by simp [Op.fn, changes]) e)).trans hs⟩
  · rintro s w t last ⟨hq, -⟩ ⟨w₁, w₂, w₃, o, t', vs, e, -⟩
    obtain ⟨hs, -, k, -, hl⟩ := doStep_loop hok e (by simp)
    have h3 : w₁.inst.mv.terminateSimulation = false := ((hq.call hok e).mv hok Timeless.feedthrough.inv ⟨rfl, rfl⟩).inst.1
    rw [hl.terminated.1 rfl] at h3
    cases h3
  · exact ha.inv (fun hq e => hq.call hok e) ⟨_, _, _, _, _, _, c, l, _, 0, [], [], hc, ⟨rfl, fun _ => rfl, fun _ _ e => by cases e⟩, rfl⟩
  · obtain ⟨w₁, u, v, ha1, ha2⟩ := AllOK.split (a := [_]) ha
    cases ha2 with
    | cons e1 ha2 =>
      cases ha2 with
      | cons e2 ha2 =>
        cases ha2 with
        | cons e3 ha2 =>
          cases ha2
          refine (Feedthrough.shows2_eq (keep_feed (by simp [Op.fn, changes]) e3)).trans ((Feedthrough.shows2_eq (keep_feed (by simp [Op.fn, changes]) e2)).trans
            ((Feedthrough.shows2_eq (keep_feed (by simp [Op.fn, changes]) e1)).trans ((start_feed ha1).trans ?_)))
          cases hc
          exact shows_start2

/-- The numbers of the example program. -/
example (resource : Ptr UInt8) : simulate2 (Feedthrough.model false : Model XRat _) feedthrough2 51 21 resource =
    .ret (.OK, ⟨XRat.fin 0, row2 (.fin 0) (.fin 0) .start⟩ :: (List.range 20).map fun (k : Nat) => ⟨.fin ((k + 1 : Nat) * (1 / 10)),
      row2 (.fin (signal false (k * (1 / 10)))) (.fin 0) (phase (k * (1 / 10)))⟩) := by
  have e : (feedthrough2 : Program XRat (Op XRat)) = { feedthrough2 with h := .fin (1 / 10), stopTime := .fin ((20 : Nat) * (1 / 10)) } := by
    have h : (feedthrough2 : Program XRat (Op XRat)).stopTime = .fin ((20 : Nat) * (1 / 10)) := by change XRat.fin 2 = _; decide +kernel
    rw [← h]; rfl
  rw [e]
  exact C81_partial (N := 20) (K := 50) (by decide +kernel) (by decide +kernel) (by decide) (by decide) (by decide) resource

/-- The claim of C81 that fails with FMI 2.0: the discrete floating point output shows the signal that the program has for its input, 1 from the time 1 on. The last row
of the example program shows 0, since the program passes two value references and announces one. -/
theorem C81_violated_discrete (resource : Ptr UInt8) : ∃ rows, simulate2 (Feedthrough.model false : Model XRat _) feedthrough2 51 21 resource = .ret (.OK, rows) ∧
    (⟨.fin 2, row2 (.fin 1) (.fin 0) .after⟩ : Row XRat (Out XRat)) ∈ rows ∧ (⟨.fin 2, row2 (.fin 1) (.fin 1) .after⟩ : Row XRat (Out XRat)) ∉ rows := by
  have e : (feedthrough2 : Program XRat (Op XRat)) = { feedthrough2 with h := .fin (1 / 10), stopTime := .fin ((20 : Nat) * (1 / 10)) } := by
    have h : (feedthrough2 : Program XRat (Op XRat)).stopTime = .fin ((20 : Nat) * (1 / 10)) := by change XRat.fin 2 = _; decide +kernel
    rw [← h]; rfl
  rw [e]
  refine ⟨_, C81_partial (N := 20) (K := 50) (by decide +kernel) (by decide +kernel) (by decide) (by decide) (by decide) resource, ?_, ?_⟩
  · refine List.mem_cons_of_mem _ (List.mem_map.2 ⟨19, by simp, ?_⟩)
    have h1 : (((19 + 1 : Nat) : Rat) * (1 / 10)) = 2 := by decide +kernel
    have h2 : signal false (((19 : Nat) : Rat) * (1 / 10)) = 1 := by decide +kernel
    have h3 : phase (((19 : Nat) : Rat) * (1 / 10)) = .after := by decide +kernel
    rw [h1, h2, h3]
  · intro h
    simp only [List.mem_cons, List.mem_map, Row.mk.injEq, row2, List.cons.injEq, Out.reals.injEq, Option.some.injEq, XRat.fin.injEq] at h
    rcases h with ⟨-, ⟨-, h, -⟩, -⟩ | ⟨k, -, -, ⟨-, h, -⟩, -⟩
    · exact absurd h (by decide +kernel)
    · exact absurd h (by decide +kernel)

end FMI2
end Verif
