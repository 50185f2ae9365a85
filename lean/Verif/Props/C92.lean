import Verif.Lemmas.Stairs

/-!
# C92: the programs for Stair record the stairs
-/

set_option linter.unusedSectionVars false

namespace Verif
open Importer.CoSim Stair

/-- Step sizes that are multiples of the `d`-th part of a second, up to 10000 such parts, satisfy the condition on the communication points. -/
theorem apart_of {d : Nat} (hd : 0 < d) (hd' : d ≤ 10000) {a N : Nat} (hN : N * a ≤ 10000) : ApartFromSeconds (a / d) N := by
  intro k hk n hn hc
  have hd0 : (0 : Rat) < d := by exact_mod_cast hd
  have hd1 : (d : Rat) ≤ 10000 := by exact_mod_cast hd'
  have hu : ((k * a : Nat) : Rat) ≤ 10000 := by exact_mod_cast le_trans (Nat.mul_le_mul_right a hk) hN
  have hu0 : (0 : Rat) ≤ ((k * a : Nat) : Rat) := Nat.cast_nonneg _
  have h1 : (k : Rat) * (a / d) = ((k * a : Nat) : Rat) / d := by push_cast; ring
  rw [h1] at hn hc
  generalize hq : ((k * a : Nat) : Rat) / d = q at hn hc
  have h3 : q * d = ((k * a : Nat) : Rat) := by rw [← hq]; exact div_mul_cancel₀ _ hd0.ne'
  have hq0 : 0 ≤ q := by rw [← hq]; exact div_nonneg hu0 hd0.le
  have h2 : ((k * a : Nat) : Rat) + 1 ≤ n * d := by
    have : ((k * a : Nat) : Rat) < ((n * d : Nat) : Rat) := by
      rw [← h3]; push_cast; exact mul_lt_mul_of_pos_right hn hd0
    exact_mod_cast this
  unfold Close tol at hc
  rw [abs_of_pos (by linarith), abs_of_nonneg (by linarith), abs_of_nonneg hq0, max_eq_left hn.le] at hc
  rcases hc with hc | hc
  · have := mul_le_mul_of_nonneg_right hc hd0.le
    rw [sub_mul, h3] at this
    linarith
  · have := mul_le_mul_of_nonneg_right hc hd0.le
    rw [sub_mul, h3, mul_assoc] at this
    linarith

theorem apart_fifth : ApartFromSeconds (1 / 5) 50 := by
  have := apart_of (d := 5) (a := 1) (N := 50) (by decide) (by decide) (by decide)
  exact_mod_cast this

theorem apart_seven : ApartFromSeconds (7 / 10) 14 := by
  have := apart_of (d := 10) (a := 7) (N := 14) (by decide) (by decide) (by decide)
  exact_mod_cast this

namespace FMI2

/-- **C92** for FMI 2.0: let the communication step size `h` be any positive number and the stop time a multiple of it, and let no communication
point lie so little before a whole second that the FMU takes them to be equal. Then the program examples/simulate_fmi2_cs.c with
examples/Stair.c ends without error. It records one row for every communication point before 9, with the number of whole seconds plus 1 as
the counter, and if the stop time is 9 or later, one more row, for the time 9 with the counter 10, whether or not 9 is a communication point.
Nothing is recorded for times after 9. -/
theorem C92_fmi2 {h : Rat} (h0 : 0 < h) {N : Nat} (hc : ApartFromSeconds h N) {fuel K n : Nat} (hK : 2 * (N * h) + 1 ≤ K * (1 / 5))
    (hf : K < fuel) (hb : fuel * N + K < 2 ^ 64) (hn : N < n) (resource : Ptr UInt8) :
    simulate2 Stair.model { stair2 with h := XRat.fin h, stopTime := XRat.fin (N * h) } fuel n resource =
      .ret (.OK, ((pointsBeforeEnd h N).map fun t => ⟨XRat.fin t, [.ints (some [stair t])]⟩) ++
        if 9 ≤ (N : Rat) * h then [⟨XRat.fin 9, [.ints (some [10])]⟩] else []) := by
  have hP : Fits Stair.model (.stair : Profile XRat _) { stair2 with h := XRat.fin h, stopTime := XRat.fin (N * h) } :=
    ⟨fits_stair.start, fits_stair.inputs, fits_stair.record⟩
  obtain ⟨c, l, w₀, vs, rows, hi, ha, h1, h2⟩ := C65 .stair hP (hh := 1 / 5) h_eq rfl h0 (N := N) rfl hK hf hb hn resource fun _ _ _ => trivial
  obtain ⟨w₁, vs', ha', hr⟩ := started (hh := 1 / 5) (h := h) .stair hi trivial hP rfl (fuel := fuel)
  obtain ⟨h3, -⟩ : w₀ = w₁ ∧ vs = vs' := AllOK.unique ha ha'
  subst h3
  have hR : ∀ {w op w' o}, Reachable Stair.model .coSimulation w → step Stair.model fuel w op = .ret (w', .OK, o) →
      Reachable Stair.model .coSimulation w' := fun hq e => hq.call okOrError e
  have hstart : At 0 w₀.inst := by
    have := ha.keeps (Q := fun w => Reachable Stair.model .coSimulation w ∧ ∃ n, At n w.inst) (fun op hop {w w' v} hq e => by
        obtain ⟨hq, n, hn⟩ := hq
        have hz : FromZero op := by
          simp only [stair2, List.nil_append, List.mem_cons, List.not_mem_nil, or_false] at hop
          rcases hop with rfl | rfl | rfl
          · exact .inr (.inr ⟨_, _, rfl⟩)
          · exact .inr (.inl rfl)
          · exact .inl (by simp [Interferes, Op.fn])
        obtain ⟨k, hk⟩ := step_at hq hn hz e (by simp)
        exact ⟨hR hq e, _, hk⟩)
      ⟨⟨_, _, _, _, _, _, c, l, _, 0, [], [], hi, ⟨rfl, fun _ => rfl, fun _ _ e => by cases e⟩, rfl⟩, 0, new_at hi⟩
    obtain ⟨-, n, hn⟩ := this
    have h4 : w₀.inst.nSteps = 0 := by have := hr.steps; omega
    rw [hn.1.nSteps] at h4
    rwa [h4] at hn
  have hpt : ∀ k, ({ stair2 with h := XRat.fin h, stopTime := XRat.fin (N * h) } : Program XRat (Op XRat)).point k = .fin (k * h) := fun _ => rfl
  have hrec : ∀ {n : Nat} {w w' : World XRat Data} {vs}, Reachable Stair.model .coSimulation w → At n w.inst →
      AllOK (step Stair.model fuel) w stair2.record w' vs → Reachable Stair.model .coSimulation w' ∧ At n w'.inst ∧
        vs = [.ints (some [1 + ((n / 5 : Nat) : Int)])] := by
    intro n w w' vs h5 h6 h7
    have := h7.keeps (Q := fun w => Reachable Stair.model .coSimulation w ∧ At n w.inst) (fun op hop {w w' v} hq e => by
      simp only [stair2, List.mem_singleton] at hop
      subst hop
      exact ⟨hR hq.1 e, at_passive hq.1 hq.2 (by simp [Interferes, Op.fn]) (by simp [Op.fn]) e⟩) ⟨h5, h6⟩
    refine ⟨this.1, this.2, ?_⟩
    rw [stair_recorded h7, h6.1.counter]
  have hstep : ∀ {k : Nat} {w w' : World XRat Data} {s o}, Reachable Stair.model .coSimulation w → (∃ n, At n w.inst ∧ Reaches (k * h) n) →
      step Stair.model fuel w (.doStep (.fin (k * h)) (.fin h)) = .ret (w', s, o) → s ≠ .Error →
      (s = .OK ∧ ∃ n, At n w'.inst ∧ Reaches ((k + 1 : Nat) * h) n) ∨
      (s = .Discard ∧ At 45 w'.inst ∧ (9 ≤ ((k + 1 : Nat) : Rat) * h ∨ Close 9 (((k + 1 : Nat) : Rat) * h))) := by
    rintro k w w' s o - ⟨n, h6, h7⟩ e hs
    obtain ⟨-, -, j, -, hl⟩ := doStep_loop okOrError e hs
    obtain ⟨ha', h45⟩ := At.loop2 hl hs h6
    have hticks : Ticks (1 / 5) 0 (n / 5) w.inst := ⟨h6.1.start, h6.1.time, by rw [h6.1.nSteps]; ring⟩
    have hsm := ha'.1.small
    have hq : XRat.fin (k * h) +. XRat.fin h = .fin (((k + 1 : Nat) : Rat) * h) := by
      rw [XRat.add_fin]; congr 1; push_cast; ring
    obtain ⟨hcnt, hre⟩ := hl.count okOrError h_eq hq hs hticks (by rw [h6.1.nSteps]; omega)
    have hup := h7.steps (q' := ((k + 1 : Nat) : Rat) * h) (by push_cast; linarith) hcnt
    rcases h45 h7.early with ⟨rfl, h8⟩ | ⟨rfl, h8⟩
    · refine .inl ⟨rfl, n + j, ha', hup, ?_, h8⟩
      have := hre rfl
      rwa [show (n : Rat) / 5 + j * (1 / 5) = ((n + j : Nat) : Rat) / 5 by push_cast; ring] at this
    · rw [h8] at hup ha'
      exact .inr ⟨rfl, ha', by rwa [show ((45 : Nat) : Rat) / 5 = 9 by norm_num] at hup⟩
  rw [h1]
  congr 2
  have key := h2.rowsUntil (Q := fun k w => Reachable Stair.model .coSimulation w ∧ ∃ n, At n w.inst ∧ Reaches (k * h) n)
    (v := fun k => [.ints (some [stair (k * h)])]) (by
      rintro k w w' vs hk ⟨hq, m, hm, hz⟩ h
      obtain ⟨h6, h7, h8⟩ := hrec hq hm h
      refine ⟨⟨h6, m, h7, hz⟩, ?_⟩
      rw [h8, hz.stair (hc k hk)]) (fun _ => rfl) (by
      rintro k w w' - hq ⟨o, e⟩
      obtain ⟨-, h6⟩ | ⟨h6, -⟩ := hstep hq.1 hq.2 e (by simp)
      · exact ⟨hR hq.1 e, h6⟩
      · cases h6) ⟨hr.alive.reach, 0, hstart, by rw [Nat.cast_zero, zero_mul]; exact .zero⟩
  rcases key with ⟨⟨w, -, m, -, hm⟩, h5⟩ | ⟨k, w, last, hk, hq, he, h5⟩
  · have hb := hm.before
    rw [h5, points_until h0 (Nat.le_refl N) hb (.inl rfl), if_neg (not_le.2 hb), List.append_nil, List.map_map]
    rfl
  · obtain ⟨w₂, w₃, w₄, o, t', vs, e, hst, hre, rfl⟩ := he
    have hb : (k : Rat) * h < 9 := by obtain ⟨-, m, -, hm⟩ := hq; exact hm.before
    obtain ⟨h6, -⟩ | ⟨-, h6, h7⟩ := hstep hq.1 hq.2 e (by simp)
    · cases h6
    have h9 : 9 ≤ ((k + 1 : Nat) : Rat) * h := by
      refine h7.elim id fun h7 => ?_
      refine Classical.byContradiction fun h8 => ?_
      exact hc (k + 1) hk 9 (by exact_mod_cast not_le.1 h8) (by exact_mod_cast h7)
    have h10 : 9 ≤ (N : Rat) * h := le_trans h9 (mul_le_mul_of_nonneg_right (by exact_mod_cast hk) h0.le)
    have hR2 : Reachable Stair.model .coSimulation w₂ := hq.1.call okOrError e
    rw [h5, points_until h0 hk.le hb (.inr h9), if_pos h10, List.map_map]
    congr 1
    cases hst with
    | cons e1 hst =>
      cases hst with
      | cons e2 hst =>
        cases hst
        have h11 := at_passive hR2 h6 (by simp [Interferes, Op.fn]) (by simp [Op.fn]) e1
        have h12 := at_passive (hR hR2 e1) h11 (by simp [Interferes, Op.fn]) (by simp [Op.fn]) e2
        have ht := lastTime e2
        rw [h11.1.time] at ht
        obtain ⟨-, -, hv⟩ := hrec (hR (hR hR2 e1) e2) h12 hre
        rw [ht, hv]
        congr 2
        congr 1
        norm_num

/-- Non-vacuity: the numbers of the program in the repository, 45 rows from the time 0 with the counter 1 to the time 8.8 with the counter 9, and the row for 9. -/
example (resource : Ptr UInt8) : ∃ rows, simulate2 Stair.model stair2 106 51 resource = .ret (.OK, rows) ∧ rows.length = 46 ∧
    rows[0]? = some ⟨XRat.fin 0, [.ints (some [1])]⟩ ∧ rows[44]? = some ⟨XRat.fin (44 / 5), [.ints (some [9])]⟩ ∧
    rows[45]? = some ⟨XRat.fin 9, [.ints (some [10])]⟩ := by
  refine ⟨_, Eq.trans (congrArg (fun P => simulate2 _ P _ _ _) ?_) (C92_fmi2 (h := 1 / 5) (N := 50) (K := 105) (by norm_num) apart_fifth
    (by norm_num) (by decide) (by decide) (by decide) resource), ?_⟩
  · show _ = ({ stair2 with h := XRat.fin (1 / 5), stopTime := XRat.fin (((50 : Nat) : Rat) * (1 / 5)) } : Program XRat (Op XRat))
    rw [show XRat.fin (((50 : Nat) : Rat) * (1 / 5)) = XRat.fin 10 by decide +kernel]
    rfl
  · decide +kernel

/-- Non-vacuity: steps of 0.7 to 9.8, so that 9 is not a communication point: the last rows are those for 8.4 and 9. -/
example (resource : Ptr UInt8) : ∃ rows, simulate2 Stair.model { stair2 with h := XRat.fin (7 / 10), stopTime := XRat.fin (((14 : Nat) : Rat) * (7 / 10)) } 200 20 resource =
    .ret (.OK, rows) ∧ rows.length = 14 ∧ rows[2]? = some ⟨XRat.fin (7 / 5), [.ints (some [2])]⟩ ∧
    rows[12]? = some ⟨XRat.fin (42 / 5), [.ints (some [9])]⟩ ∧ rows[13]? = some ⟨XRat.fin 9, [.ints (some [10])]⟩ :=
  ⟨_, C92_fmi2 (N := 14) (K := 104) (by norm_num) apart_seven (by norm_num) (by decide) (by decide) (by decide) resource, by decide +kernel⟩

/-- The condition on the communication points is needed: with a communication point little before a whole second the FMU is at that second. -/
theorem C92_just_before : ∃ rows, simulate2 Stair.model { stair2 with h := XRat.fin (1 - 1 / 10000000), stopTime := XRat.fin (((2 : Nat) : Rat) * (1 - 1 / 10000000)) } 100 3 none =
    .ret (.OK, rows) ∧ rows[1]? = some ⟨XRat.fin (1 - 1 / 10000000), [.ints (some [2])]⟩ ∧ stair (1 - 1 / 10000000) = 1 := by
  obtain ⟨⟨s, rows⟩, e, h⟩ := Outcome.exists_of_is (r := simulate2 (Stair.model : Model XRat _)
    { stair2 with h := XRat.fin (1 - 1 / 10000000), stopTime := XRat.fin (((2 : Nat) : Rat) * (1 - 1 / 10000000)) } 100 3 none)
    (p := fun x => decide (x.1 = .OK) && decide ((x.2[1]?).map Row.time = some (XRat.fin (1 - 1 / 10000000))) &&
      decide ((x.2[1]?).map Row.values = some [Out.ints (some [2])])) (by decide +kernel)
  simp only [Bool.and_eq_true, decide_eq_true_eq] at h
  obtain ⟨⟨rfl, h1⟩, h2⟩ := h
  refine ⟨rows, e, ?_, by decide +kernel⟩
  cases hx : rows[1]? with
  | none => rw [hx] at h1; cases h1
  | some r =>
    rw [hx] at h1 h2
    obtain ⟨t, v⟩ := r
    simp only [Option.map_some, Option.some.injEq] at h1 h2
    rw [h1, h2]

end FMI2

namespace FMI3

/-- **C92** for FMI 3.0: let the communication step size `h` be any positive number and the stop time a multiple of it, and let no communication
point lie so little before a whole second that the FMU takes them to be equal. Then the program examples/simulate_fmi3_cs.c with
examples/Stair.c ends without error and records exactly one row for every communication point before 9, with the number of whole seconds
plus 1 as the counter. Missing: the row for the end of the simulation, see `C92_violated_end`. -/
theorem C92_fmi3_partial {h : Rat} (h0 : 0 < h) {N : Nat} (hc : ApartFromSeconds h N) {fuel K n : Nat} (hK : 2 * (N * h) + 1 ≤ K * (1 / 5))
    (hf : K < fuel) (hb : fuel * N + K < 2 ^ 64) (hn : N < n) (resource : Ptr UInt8) :
    simulate3 Stair.model { stair3 with h := XRat.fin h, stopTime := XRat.fin (N * h) } fuel n resource =
      .ret (.OK, (pointsBeforeEnd h N).map fun t => ⟨XRat.fin t, [.values .int32 (some [stair t])]⟩) := by
  have hP : Fits Stair.model (.stair : Profile XRat _) { stair3 with h := XRat.fin h, stopTime := XRat.fin (N * h) } :=
    ⟨fits_stair.start, fits_stair.inputs, fits_stair.record⟩
  obtain ⟨c, l, w₀, vs, rows, hi, ha, h1, h2⟩ := C65_partial .stair hP (hh := 1 / 5) h_eq rfl h0 (N := N) rfl hK hf hb hn resource fun _ _ _ => trivial
  obtain ⟨-, htyp, -, hem, her⟩ := created_ongoing .stair hi
  obtain ⟨w₁, vs', ha', hr⟩ := started (hh := 1 / 5) (h := h) .stair hi trivial hP rfl (fuel := fuel)
  obtain ⟨h3, -⟩ : w₀ = w₁ ∧ vs = vs' := AllOK.unique ha ha'
  subst h3
  have hstart : At 0 w₀.inst := by
    have := ha.keeps (Q := fun w => Reachable Stair.model .coSimulation w ∧ w.inst.eventModeUsed = false ∧ ∃ n, At n w.inst) (fun op hop {w w' v} hq e => by
        obtain ⟨hq, hem, n, hn⟩ := hq
        have hz : FromZero op := by
          simp only [stair3, List.nil_append, List.mem_cons, List.not_mem_nil, or_false] at hop
          rcases hop with rfl | rfl
          · exact .inr ⟨_, _, rfl⟩
          · exact .inl (by simp [Interferes, Op.fn])
        obtain ⟨hem', k, hk⟩ := step_at hq hn hem hz e rfl
        exact ⟨hq.call okOrError e, hem', _, hk⟩)
      ⟨⟨c, _, 0, [], [], .cs hi, ⟨rfl, fun _ => rfl, fun _ _ e => by cases e⟩, rfl⟩, (new_at hi).2, 0, (new_at hi).1⟩
    obtain ⟨-, -, n, hn⟩ := this
    have h4 : w₀.inst.nSteps = 0 := by have := hr.steps; omega
    rw [hn.1.nSteps] at h4
    rwa [h4] at hn
  have hemu : ∀ {k w}, Running Stair.model (.stair : Profile XRat _) c (1 / 5) h (N * h) fuel k w → w.inst.eventModeUsed = false :=
    fun hq => hq.alive.kept.inst.2.2.trans hem
  have hera : ∀ {k w}, Running Stair.model (.stair : Profile XRat _) c (1 / 5) h (N * h) fuel k w → w.inst.earlyReturnAllowed = false :=
    fun hq => hq.alive.kept.inst.2.1.trans her
  have hstep : ∀ {k : Nat} {w w' : World XRat Data} {r}, k < N → Running Stair.model (.stair : Profile XRat _) c (1 / 5) h (N * h) fuel k w →
      (∃ n, At n w.inst ∧ Reaches (k * h) n) →
      step Stair.model fuel w (.doStep (.fin (k * h)) (.fin h) ⟨some false, some false, some false, some (Arith.lit 0)⟩) = .ret (w', .OK, .step r) →
      (r.terminateSimulation = some false ∧ Running Stair.model (.stair : Profile XRat _) c (1 / 5) h (N * h) fuel (k + 1) w' ∧
        ∃ n, At n w'.inst ∧ Reaches ((k + 1 : Nat) * h) n) ∨
      (r.terminateSimulation = some true ∧ (9 ≤ ((k + 1 : Nat) : Rat) * h ∨ Close 9 (((k + 1 : Nat) : Rat) * h))) := by
    rintro k w w' r hk hq ⟨n, h6, h7⟩ e
    obtain ⟨w2, r2, e2, hrun⟩ := hq.doStep .stair trivial hem her h_eq h0 le_rfl hK hb hf hk
    rw [e] at e2
    cases e2
    obtain ⟨-, j, c', ehn, re, -, hl, rfl, ho⟩ := doStep_loop okOrError e
    cases ho
    obtain ⟨ha', h45⟩ := At.loop3 hl (by simp) rfl (hemu hq) h6
    obtain ⟨h45, h45r⟩ := h45 h7.early
    have hticks : Ticks (1 / 5) 0 (n / 5) w.inst := ⟨h6.1.start, h6.1.time, by rw [h6.1.nSteps]; ring⟩
    have hsm := ha'.1.small
    have hq' : XRat.fin (k * h) +. XRat.fin h = .fin (((k + 1 : Nat) : Rat) * h) := by
      rw [XRat.add_fin]; congr 1; push_cast; ring
    obtain ⟨hcnt, hre⟩ := hl.count okOrError h_eq hq' (by simp) hticks (by rw [h6.1.nSteps]; omega)
    have hup := h7.steps (q' := ((k + 1 : Nat) : Rat) * h) (by push_cast; linarith) hcnt
    rcases hrun with ⟨ht, hrun⟩ | ⟨ht, -⟩
    · refine .inl ⟨ht, hrun, n + j, ⟨⟨ha'.1.start, ha'.1.time, ha'.1.nSteps, ha'.1.counter, ha'.1.netd, ha'.1.net, ha'.1.term,
        ha'.1.small⟩, ⟨ha'.2.1.z, ha'.2.1.prez, ha'.2.1.x, ha'.2.1.dx⟩, ha'.2.2⟩, hup, ?_, ?_⟩
      · have hret : re = true := by
          refine Classical.byContradiction fun hne => ?_
          have h8 : c'.earlyReturnAllowed = false := hera hrun
          simp only [Option.some.injEq] at ht
          rcases hl.left okOrError rfl (by simpa using hne) with h9 | h9
          · rw [h8] at h9; cases h9
          · rw [ht] at h9; cases h9
        have := hre hret
        rwa [show (n : Rat) / 5 + j * (1 / 5) = ((n + j : Nat) : Rat) / 5 by push_cast; ring] at this
      · simp only [Option.some.injEq] at ht
        refine Classical.byContradiction fun h8 => ?_
        rw [ha'.term.2 (by omega)] at ht
        cases ht
    · refine .inr ⟨ht, ?_⟩
      simp only [Option.some.injEq] at ht
      have h8 : n + j = 45 := by have := ha'.term.1 ht; omega
      rw [h8] at hup
      rwa [show ((45 : Nat) : Rat) / 5 = 9 by norm_num] at hup
  rw [h1]
  congr 2
  have key := h2.rowsUntil (Q := fun k w => Running Stair.model (.stair : Profile XRat _) c (1 / 5) h (N * h) fuel k w ∧ ∃ n, At n w.inst ∧ Reaches (k * h) n)
    (v := fun k => [.values .int32 (some [stair (k * h)])]) (by
      rintro k w w' vs hk ⟨hq, m, hm, hz⟩ h
      have h6 := h.keeps (Q := fun w' => Running Stair.model (.stair : Profile XRat _) c (1 / 5) _ (N * _) fuel k w' ∧ At m w'.inst) (fun op hop {w w' v} hq e => by
        obtain ⟨w2, o2, e2, hr2⟩ := hq.1.access .stair htyp trivial (hP.record _ hop)
        rw [e] at e2
        cases e2
        simp only [stair3, List.mem_singleton] at hop
        subst hop
        exact ⟨hr2, (at_passive (hq.1.alive.reach.reachable okOrError) hq.2 (hemu hq.1) (by simp [Interferes, Op.fn]) (by simp [Op.fn]) e).1⟩) ⟨hq, hm⟩
      refine ⟨⟨h6.1, m, h6.2, hz⟩, ?_⟩
      rw [stair_recorded h, hm.1.counter, hz.stair (hc k hk)]) (fun _ => rfl) (by
      rintro k w w' hk hq ⟨r, e, ht⟩
      obtain ⟨-, h6, h7⟩ | ⟨h6, -⟩ := hstep hk hq.1 hq.2 e
      · exact ⟨h6, h7⟩
      · rw [ht] at h6; cases h6) ⟨hr, 0, hstart, by rw [Nat.cast_zero, zero_mul]; exact .zero⟩
  rcases key with ⟨⟨w, -, m, -, hm⟩, h5⟩ | ⟨k, w, last, hk, hq, he, h5⟩
  · rw [h5, points_until h0 (Nat.le_refl N) hm.before (.inl rfl), List.map_map]
    rfl
  · obtain ⟨w₂, r, e, ht, rfl⟩ := he
    have hb : (k : Rat) * h < 9 := by obtain ⟨-, m, -, hm⟩ := hq; exact hm.before
    obtain ⟨h6, -⟩ | ⟨-, h7⟩ := hstep hk hq.1 hq.2 e
    · rw [ht] at h6; cases h6
    have h9 : 9 ≤ ((k + 1 : Nat) : Rat) * h := by
      refine h7.elim id fun h7 => ?_
      refine Classical.byContradiction fun h8 => ?_
      exact hc (k + 1) hk 9 (by exact_mod_cast not_le.1 h8) (by exact_mod_cast h7)
    rw [h5, points_until h0 hk.le hb (.inr h9), List.append_nil, List.map_map]
    rfl

/-- Non-vacuity: the numbers of the program in the repository, 45 rows from the time 0 with the counter 1 to the time 8.8 with the counter 9. -/
example (resource : Ptr UInt8) : ∃ rows, simulate3 Stair.model stair3 106 51 resource = .ret (.OK, rows) ∧ rows.length = 45 ∧
    rows[0]?.map Row.time = some (XRat.fin 0) ∧ rows[44]?.map Row.time = some (XRat.fin (44 / 5)) ∧ stair 0 = 1 ∧ stair (44 / 5) = 9 := by
  refine ⟨_, Eq.trans (congrArg (fun P => simulate3 _ P _ _ _) ?_) (C92_fmi3_partial (h := 1 / 5) (N := 50) (K := 105) (by norm_num) apart_fifth
    (by norm_num) (by decide) (by decide) (by decide) resource), ?_⟩
  · show _ = ({ stair3 with h := XRat.fin (1 / 5), stopTime := XRat.fin (((50 : Nat) : Rat) * (1 / 5)) } : Program XRat (Op XRat))
    rw [show XRat.fin (((50 : Nat) : Rat) * (1 / 5)) = XRat.fin 10 by decide +kernel]
    rfl
  · decide +kernel

/-- Non-vacuity: steps of 0.7 to 9.8, so that 9 is not a communication point: the last row is that for 8.4. -/
example (resource : Ptr UInt8) : ∃ rows, simulate3 Stair.model { stair3 with h := XRat.fin (7 / 10), stopTime := XRat.fin (((14 : Nat) : Rat) * (7 / 10)) } 200 20 resource =
    .ret (.OK, rows) ∧ rows.length = 13 ∧ rows[12]?.map Row.time = some (XRat.fin (42 / 5)) :=
  ⟨_, C92_fmi3_partial (N := 14) (K := 104) (by norm_num) apart_seven (by norm_num) (by decide) (by decide) (by decide) resource, by decide +kernel⟩

/-- **C92 is violated** by the program for FMI 3.0: whatever the step size and the stop time, the last stair, with which the simulation ends, is in no
row. (The program for FMI 2.0 records it, `FMI2.C92_fmi2`.) -/
theorem C92_violated_end {h : Rat} (h0 : 0 < h) {N : Nat} (hc : ApartFromSeconds h N) {fuel K n : Nat} (hK : 2 * (N * h) + 1 ≤ K * (1 / 5))
    (hf : K < fuel) (hb : fuel * N + K < 2 ^ 64) (hn : N < n) (resource : Ptr UInt8) :
    ∃ rows, simulate3 Stair.model { stair3 with h := XRat.fin h, stopTime := XRat.fin (N * h) } fuel n resource = .ret (.OK, rows) ∧
      ∀ row ∈ rows, row.time ≠ .fin 9 ∧ row.values ≠ [.values .int32 (some [(10 : Int)])] := by
  refine ⟨_, C92_fmi3_partial h0 hc hK hf hb hn resource, fun row hrow => ?_⟩
  simp only [pointsBeforeEnd, List.mem_map, List.mem_filter, decide_eq_true_eq] at hrow
  obtain ⟨t, ⟨-, ht⟩, rfl⟩ := hrow
  refine ⟨fun h => ?_, fun h => ?_⟩
  · cases h; exact lt_irrefl _ ht
  · have h1 : stair t = 10 := by
      injection h with h _
      injection h with _ h
      simpa using h
    have h2 : t.floor < 9 := Int.floor_lt.2 (by exact_mod_cast ht)
    unfold stair at h1
    omega

example (resource : Ptr UInt8) := C92_violated_end (h := 1 / 5) (N := 50) (K := 105) (fuel := 106) (n := 51) (by norm_num) apart_fifth
    (by norm_num) (by decide) (by decide) (by decide) resource

end FMI3
end Verif
