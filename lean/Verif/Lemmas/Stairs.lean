import Verif.Lemmas.Solved
import Verif.Spec.Stairs
import Verif.Props.C32
import Verif.Props.C65

/-!
# The rows that the programs for the Stair FMU write
-/

set_option linter.unusedSectionVars false

namespace Verif
open Importer.CoSim Stair

/-- The rows of a simulation that may be ended by the FMU. -/
theorem Simulated.rowsUntil {F W O V : Type} [Arith F] {call : W → O → Outcome (W × Status × V)} {goes : W → F → W → Prop}
    {ends : W → F → List (Row F V) → Prop} {P : Program F O} {w₀ : W} {N : Nat} {Q : Nat → W → Prop} {v : Nat → List V}
    (hQ : ∀ {k w w' vs}, k ≤ N → Q k w → AllOK call w P.record w' vs → Q k w' ∧ vs = v k)
    (hin : ∀ t, P.inputs t = []) (hG : ∀ {k w w'}, k < N → Q k w → goes w (P.point k) w' → Q (k + 1) w')
    (hq : Q 0 w₀) {rows} (h : Simulated call goes ends P w₀ N rows) :
    ((∃ w, Q N w) ∧ rows = (List.range (N + 1)).map fun k => ⟨P.point k, v k⟩) ∨
    ∃ k w last, k < N ∧ Q k w ∧ ends w (P.point k) last ∧ rows = ((List.range (k + 1)).map fun k => ⟨P.point k, v k⟩) ++ last := by
  have hV : ∀ {k w w' row}, k ≤ N → Q k w → Visits call P k w w' row → Q k w' ∧ row = ⟨P.point k, v k⟩ := by
    rintro k w w' ⟨t, vs⟩ hk hq ⟨ht, w₁, us, h1, h2⟩
    rw [hin] at h2
    cases h2
    obtain ⟨h3, h4⟩ := hQ hk hq h1
    simp only at ht h4
    exact ⟨h3, by rw [ht, h4]⟩
  have hP : ∀ {k w rows}, Proceeds call goes P w₀ k w rows → k ≤ N → Q k w ∧ rows = (List.range k).map fun k => ⟨P.point k, v k⟩ := by
    intro k w rows h
    induction h with
    | zero => exact fun _ => ⟨hq, rfl⟩
    | succ _ hv hg ih =>
      intro hk
      obtain ⟨h1, h2⟩ := ih (by omega)
      obtain ⟨h3, h4⟩ := hV (by omega) h1 hv
      exact ⟨hG (by omega) h3 hg, by rw [List.range_succ, List.map_append, ← h2, h4]; rfl⟩
  cases h with
  | complete hp hv =>
    obtain ⟨h1, h2⟩ := hP hp (Nat.le_refl _)
    obtain ⟨h3, h4⟩ := hV (Nat.le_refl _) h1 hv
    exact .inl ⟨⟨_, h3⟩, by rw [List.range_succ, List.map_append, ← h2, h4]; rfl⟩
  | @ended k w w' rows row last hk hp hv he =>
    obtain ⟨h1, h2⟩ := hP hp (by omega)
    obtain ⟨h3, h4⟩ := hV (by omega) h1 hv
    refine .inr ⟨k, w', last, hk, h3, he, ?_⟩
    rw [List.range_succ, List.map_append, ← h2, h4, List.append_assoc]; rfl

namespace Stair

/-- After `n` solver steps the FMU has reached the communication point `q`. -/
structure Reaches (q : Rat) (n : Nat) : Prop where
  upto : (n : Rat) / 5 ≤ q ∨ Close (n / 5) q
  reach : Reach (1 / 5) q (n / 5)
  early : n < 45

theorem Reaches.zero : Reaches 0 0 := by
  refine ⟨.inl (by norm_num), ⟨by norm_num, ?_⟩, by omega⟩
  unfold Close tol
  norm_num

theorem Reaches.before {q : Rat} {n : Nat} (h : Reaches q n) : q < 9 := by
  have h1 := h.reach.1
  have : (n : Rat) ≤ 44 := by exact_mod_cast (show n ≤ 44 from Nat.le_of_lt_succ h.early)
  linarith

/-- The FMU shows the stair of the communication point. -/
theorem Reaches.stair {q : Rat} {n : Nat} (h : Reaches q n) (hc : ∀ m : Nat, q < m → ¬ Close m q) : 1 + ((n / 5 : Nat) : Int) = stair q := by
  unfold Verif.stair
  congr 1
  rw [← floor_fifth]
  have h1 := h.reach.1
  refine le_antisymm ?_ ?_
  · rcases h.upto with h2 | h2
    · exact Int.floor_mono h2
    · refine Classical.byContradiction fun h3 => ?_
      rw [not_le] at h3
      rw [floor_fifth] at h3
      have h4 : q < ((n / 5 : Nat) : Rat) := by
        have := Int.floor_lt.1 (show ⌊q⌋ < ((n / 5 : Nat) : Int) from h3)
        exact_mod_cast this
      have h5 : ((n / 5 : Nat) : Rat) ≤ (n : Rat) / 5 := by
        rw [le_div_iff₀ (by norm_num)]
        exact_mod_cast Nat.div_mul_le_self n 5
      exact hc _ h4 (h2.symm.between h4.le h5).symm
  · rw [floor_fifth]
    have h2 : (⌊q⌋ : Rat) ≤ q := Int.floor_le q
    have h3 : (⌊q⌋ : Rat) * 5 < n + 1 := by linarith
    have h4 : ⌊q⌋ * 5 < (n : Int) + 1 := by exact_mod_cast h3
    show ⌊q⌋ ≤ _
    omega

/-- The communication points up to the one at which the simulation ends. -/
theorem points_until {h : Rat} {N k : Nat} (h0 : 0 < h) (hk : k ≤ N) (h1 : (k : Rat) * h < 9) (h2 : k = N ∨ 9 ≤ ((k + 1 : Nat) : Rat) * h) :
    pointsBeforeEnd h N = (List.range (k + 1)).map fun (i : Nat) => (i : Rat) * h := by
  obtain ⟨d, rfl⟩ := Nat.exists_eq_add_of_le hk
  unfold pointsBeforeEnd
  rw [Nat.add_right_comm, List.range_add, List.map_append, List.filter_append, List.filter_eq_self.2, List.filter_eq_nil_iff.2, List.append_nil]
  · simp only [List.mem_map, List.mem_range]
    rintro _ ⟨_, ⟨i, hi, rfl⟩, rfl⟩
    rw [decide_eq_true_eq, not_lt]
    refine le_trans (h2.resolve_left (by omega)) (mul_le_mul_of_nonneg_right ?_ h0.le)
    exact_mod_cast Nat.le_add_right _ _
  · simp only [List.mem_map, List.mem_range]
    rintro _ ⟨i, hi, rfl⟩
    rw [decide_eq_true_eq]
    refine lt_of_le_of_lt (mul_le_mul_of_nonneg_right ?_ h0.le) h1
    exact_mod_cast Nat.le_of_lt_succ hi

/-- The solver steps of one communication step. -/
theorem Reaches.steps {q q' : Rat} {n k : Nat} (h : Reaches q n) (hq : q ≤ q') {c c' : Comp XRat Data} (hc : Count (1 / 5) q' 0 (n / 5) c c' k) :
    ((n + k : Nat) : Rat) / 5 ≤ q' ∨ Close (((n + k : Nat) : Rat) / 5) q' := by
  cases k with
  | zero =>
    rcases h.upto with h1 | h1
    · exact .inl (le_trans h1 hq)
    · by_cases h2 : (n : Rat) / 5 ≤ q'
      · exact .inl h2
      · exact .inr (h1.symm.between' hq (not_le.1 h2).le).symm
  | succ k =>
    have := hc.last
    rwa [show (n : Rat) / 5 + ((k + 1 : Nat) : Rat) * (1 / 5) = ((n + (k + 1) : Nat) : Rat) / 5 by push_cast; ring] at this

end Stair

namespace FMI2

theorem at_passive {w w' : World XRat Data} (hr : Reachable Stair.model .coSimulation w) {n fuel op o} (ha : At n w.inst)
    (hop : ¬ Interferes op) (hd : op.fn ≠ .doStep) (e : step Stair.model fuel w op = .ret (w', .OK, o)) : At n w'.inst := by
  obtain ⟨k, h⟩ := step_at hr ha (.inl hop) e (by simp)
  have h1 : w'.inst.nSteps = w.inst.nSteps := congrArg Times.nSteps (passive_times okOrError hop hd e)
  rw [h.1.nSteps, ha.1.nSteps] at h1
  rwa [h1] at h

theorem stair_recorded {F : Type} [Arith F] [HasInf F] {fuel : Nat} {w w' : World F Data} {vs : List (Out F)}
    (h : AllOK (FMI2.step Stair.model fuel) w stair2.record w' vs) : vs = [.ints (some [w.inst.mv.data.counter])] := by
  cases h with
  | cons e h =>
    cases h
    simp only [FMI2.step, World.run, getInteger, begin, beginFunction] at e
    obtain ⟨⟨c1, s1, o1⟩, e1, e⟩ := Outcome.bind_eq_ret.1 e
    cases e
    split at e1
    · simp only [getVariables, refresh, if_neg (show ¬(1 = 0) by decide)] at e1
      split at e1
      · cases e1; rfl
      · cases e1; rfl
    · cases e1

theorem lastTime {fuel : Nat} {w w' : World XRat Data} {t'}
    (e : step Stair.model fuel w (.getRealStatus .lastSuccessfulTime (some (Arith.lit 0))) = .ret (w', .OK, .real (some t'))) :
    t' = w.inst.ctx.time := by
  simp only [FMI2.step, World.run, getRealStatus, begin, beginFunction] at e
  obtain ⟨⟨c1, s1, o1⟩, e1, e⟩ := Outcome.bind_eq_ret.1 e
  cases e
  split at e1
  · simp only [if_true] at e1
    cases e1; rfl
  · cases e1

end FMI2

namespace FMI3

theorem at_passive {w w' : World XRat Data} (hr : Reachable Stair.model .coSimulation w) {n fuel op o} (ha : At n w.inst)
    (hem : w.inst.eventModeUsed = false) (hop : ¬ Interferes op) (hd : op.fn ≠ .doStep) (e : step Stair.model fuel w op = .ret (w', .OK, o)) :
    At n w'.inst ∧ w'.inst.eventModeUsed = false := by
  obtain ⟨h0, k, h⟩ := step_at hr ha hem (.inl hop) e rfl
  have h1 : w'.inst.nSteps = w.inst.nSteps := congrArg Times.nSteps (passive_times okOrError hop hd e)
  rw [h.1.nSteps, ha.1.nSteps] at h1
  rw [h1] at h
  exact ⟨h, h0⟩

theorem stair_recorded {F : Type} [Arith F] [HasInf F] {fuel : Nat} {w w' : World F Data} {vs : List (Out F)}
    (h : AllOK (FMI3.step Stair.model fuel) w stair3.record w' vs) : vs = [.values .int32 (some [w.inst.mv.data.counter])] := by
  cases h with
  | cons e h =>
    cases h
    simp only [FMI3.step, World.run, getVars, begin, beginFunction] at e
    obtain ⟨⟨c1, s1, o1⟩, e1, e⟩ := Outcome.bind_eq_ret.1 e
    cases e
    split at e1
    · simp only [refresh, if_neg (show ¬(1 = 0) by decide)] at e1
      rw [if_pos (by decide)] at e1
      simp only [assertNonNull, Option.isNone_some, Bool.false_eq_true, if_false] at e1
      split at e1
      · cases e1; rfl
      · cases e1; rfl
    · cases e1

end FMI3
end Verif
