import Verif.Lemmas.DriverInputs
import Verif.Props.C66

/-!
# C66 for the Model Exchange programs with start values and inputs
-/

set_option linter.unusedSectionVars false

namespace Verif
open Importer.CoSim Importer.Euler

namespace FMI2
section
variable {F D : Type} [Arith F] [HasInf F] {m : Model F D} {p : Profile F D}

/-- **C66** for FMI 2.0 with start values and inputs: if these are legal and the recorded variables of the program are those of the FMU, then the program
examples/simulate_fmi2_me.c returns `fmi2OK`, with rows for the times `0, h, …, N h`, one or two for each of them. Only Stair may end the simulation
earlier. If the FMU has no events of its own, then there are two rows for exactly the times at which an input changes: those before and after. -/
theorem C66_inputs (hm : Describes m p) {M : Macros} (hM : M = .built ∨ M = .meant m) {P : Program F (Op F)} (hr : ∀ op ∈ P.record, Gets m p op)
    {inp : Inputs F (Op F)} (hi : LegalInputs m p inp) {N : Nat} (hN : N < 2 ^ 64)
    (hstop : ∀ k ≤ N, (P.stopTime <=. timeAfter P.h k) = decide (k = N)) {fuel n : Nat} (hf : 0 < fuel) (hn : N < n) (resource : Ptr UInt8)
    (hneeds : ∀ c l, instantiate m (some "instance1") .modelExchange (some m.token) resource (some true) false true = (some c, l) → p.needs c.ctx) :
    ∃ rows, simulate2With m M P inp fuel n resource = .ret (.OK, rows) ∧
      (∃ k ≤ N + 1, Covers True (timeAfter P.h) k (rows.map Row.time) ∧ (Timeless m → k = N + 1)) ∧
      (Timeless m → M.nz = 0 → rows.map Row.time = inputTimes inp (timeAfter P.h) (N + 1)) := by
  obtain ⟨c, l, hc⟩ := createdME hm resource
  have hnc := hneeds c l hc
  obtain ⟨w₀, vs, ha, ho⟩ := startedWith hm hc hnc hi (stop := P.stopTime)
  have ht : c.ctx.typ = .modelExchange := (createModelInstance_ctx (show createModelInstance m false true false (some "instance1") (some m.token)
    resource false true .modelExchange = (some c, l) from hc)).1
  obtain ⟨s, e, hE⟩ := simulateWith_succeeds
    (drivesME hm ht hnc hr (cfg := ⟨M.nx, M.nz, P.h, P.stopTime, true⟩)
      (hM.imp (by rintro rfl; rfl) (by rintro rfl; rfl)) (hM.imp (by rintro rfl; rfl) (by rintro rfl; rfl))) (feeds hm ht hnc hi) hf hN hstop ho hn
  obtain ⟨w', v, et⟩ := hE.mode
  obtain ⟨k, hk, hcov, hend⟩ := hE.rows
  have hT : Timeless m → k = N + 1 ∧ Rows ⟨M.nx, M.nz, P.h, P.stopTime, true⟩ (Endless m) inp k (s.w.rows.map Row.time) := fun hT =>
    hend.resolve_right fun h => by have := (h.1 hT).2; rw [h.2] at this; cases this
  refine ⟨s.w.rows, ?_, ⟨k, hk, hcov, fun h => (hT h).1⟩, fun h hz => ?_⟩
  · unfold simulate2With
    rw [hc]
    simp only []
    rw [CALLS_ok (api := Importer.CoSim.api2 m 0 P.h) ha, e]
    simp only [Outcome.ret_bind, Bool.false_eq_true, if_false, hE.status]
    exact tearDown_ok (api := Importer.CoSim.api2 m 0 P.h) et
  · obtain ⟨rfl, hR⟩ := hT h
    exact hR.exact ⟨hz, fun i hi => hi h⟩

end

section
variable {F : Type} [Arith F] [HasInf F]

/-- The inputs that the program sets in Feedthrough are legal. -/
theorem legal_feedthrough : LegalInputs (Feedthrough.model false) (.feedthrough false : Profile F _) feedthroughInputs2 := by
  refine ⟨fun op h => ?_, fun t b op h mode hmode => ?_, fun t op h mode hmode => ?_⟩
  · simp only [feedthroughInputs2, List.mem_singleton] at h; subst h
    refine ⟨by simp [Op.fn], by simp [Op.fn, Spec.allowedIn], fun w h1 h2 => ⟨?_, .inr ⟨_, rfl, by simp⟩, .inr ⟨_, rfl, by simp⟩⟩⟩
    exact Profile.sets_one ⟨.fixed, by simp [Profile.feedthrough, Profile.feedthroughVars], by simp [Access.allows, h2], trivial⟩
  · simp only [feedthroughInputs2, List.mem_singleton] at h; subst h
    simp only [List.mem_cons, List.not_mem_nil, or_false] at hmode
    refine ⟨by simp [Op.fn], by rcases hmode with rfl | rfl | rfl <;> simp [Op.fn, Spec.allowedIn], fun w h1 h2 => ⟨?_, .inr ⟨_, rfl, by simp⟩, .inr ⟨_, rfl, by simp⟩⟩⟩
    exact Profile.sets_one ⟨.always, by simp [Profile.feedthrough, Profile.feedthroughVars], by simp [Access.allows], trivial⟩
  · simp only [feedthroughInputs2, List.mem_cons, List.not_mem_nil, or_false] at h
    simp only [List.mem_cons, List.not_mem_nil, or_false] at hmode
    rcases h with rfl | rfl | rfl | rfl
    · refine ⟨by simp [Op.fn], by rcases hmode with rfl | rfl <;> simp [Op.fn, Spec.allowedIn], fun w h1 h2 => ⟨?_, .inr ⟨_, rfl, by simp⟩, .inr ⟨_, rfl, by simp⟩⟩⟩
      exact Profile.sets_one ⟨.discrete, by simp [Profile.feedthrough, Profile.feedthroughVars], by rcases hmode with rfl | rfl <;> simp [Access.allows, h2], trivial⟩
    · refine ⟨by simp [Op.fn], by rcases hmode with rfl | rfl <;> simp [Op.fn, Spec.allowedIn], fun w h1 h2 => ⟨?_, .inr ⟨_, rfl, by simp⟩, .inr ⟨_, rfl, by simp⟩⟩⟩
      exact Profile.sets_one ⟨.always, by simp [Profile.feedthrough, Profile.feedthroughVars], by simp [Access.allows], by
        simp [Profile.feedthrough, Profile.feedthroughAdmits]⟩
    · refine ⟨by simp [Op.fn], by rcases hmode with rfl | rfl <;> simp [Op.fn, Spec.allowedIn], fun w h1 h2 => ⟨?_, .inr ⟨_, rfl, by simp⟩, .inr ⟨_, rfl, by simp⟩⟩⟩
      exact Profile.sets_one ⟨.always, by simp [Profile.feedthrough, Profile.feedthroughVars], by simp [Access.allows], trivial⟩
    · refine ⟨by simp [Op.fn], by rcases hmode with rfl | rfl <;> simp [Op.fn, Spec.allowedIn], fun w h1 h2 => ⟨?_, .inr ⟨_, rfl, by simp⟩, .inr ⟨_, rfl, by simp⟩, ?_⟩⟩
      · refine Profile.sets_one ⟨.always, by simp [Profile.feedthrough, Profile.feedthroughVars], by simp [Access.allows], _, rfl, ?_⟩
        split <;> decide +kernel
      · intro l hl x hx
        cases hl
        simp only [List.mem_singleton] at hx
        subst hx
        simp [VType.Good, Importer.CoSim.Feedthrough.text]

theorem gets_feedthrough : ∀ op ∈ (feedthrough2 : Program F _).record, Gets (Feedthrough.model false) (.feedthrough false) op := by
  intro op h
  obtain ⟨hf, -, ha⟩ := fits_feedthrough.record op h
  simp only [feedthrough2, List.mem_cons, List.not_mem_nil, or_false] at h
  rcases h with rfl | rfl | rfl | rfl
  · exact .getReal rfl rfl (by simp [Profile.declares, Profile.feedthrough, Profile.feedthroughVars])
  · exact .getInteger rfl rfl (by simp [Profile.declares, Profile.feedthrough, Profile.feedthroughVars])
  · exact ⟨by simp [Op.fn], fun w => ⟨Profile.gets_of (p := .feedthrough false) (t := .boolean) (vrs := [28]) (by simp [Profile.declares, Profile.feedthrough, Profile.feedthroughVars]), .inr ⟨_, rfl, Nat.le_refl _⟩, .inr ⟨_, rfl, by simp⟩⟩⟩
  · exact ⟨by simp [Op.fn], fun w => ⟨⟨Profile.gets_of (by simp [Profile.declares, Profile.feedthrough, Profile.feedthroughVars]), by simp⟩, .inr ⟨_, rfl, Nat.le_refl _⟩, .inr ⟨_, rfl, by simp⟩⟩⟩

end

/-- The program for Feedthrough: 24 rows, two for 0.5, 1 and 1.5. -/
theorem C66_feedthrough (resource : Ptr UInt8) : ∃ rows, simulate2With (Feedthrough.model false) .built feedthrough2 feedthroughInputs2 1 21 resource = .ret (.OK, rows) ∧
    rows.map Row.time = ([0, 1/10, 1/5, 3/10, 2/5, 1/2, 1/2, 3/5, 7/10, 4/5, 9/10, 1, 1, 11/10, 6/5, 13/10, 7/5, 3/2, 3/2, 8/5, 17/10, 9/5, 19/10, 2] : List Rat).map XRat.fin := by
  obtain ⟨rows, e, -, h⟩ := C66_inputs (F := XRat) .feedthrough (.inl rfl) (P := feedthrough2) gets_feedthrough legal_feedthrough (N := 20) (n := 21) (fuel := 1)
    (by decide) (stop_multiple (by decide +kernel) (by decide +kernel)) (by decide) (by decide) resource fun _ _ _ => trivial
  exact ⟨rows, e, (h .feedthrough rfl).trans (by decide +kernel)⟩

/-- What it records for the continuous output, before and after the input events: the value of the input at the time. -/
theorem C66_feedthrough_values : ∃ rows, simulate2With (Feedthrough.model false) .built feedthrough2 feedthroughInputs2 1 21 none = .ret (.OK, rows) ∧
    (rows.map fun r => r.values.head?) = ([(0, false), (1/10, false), (1/5, false), (3/10, false), (2/5, false), (1/2, false), (1/2, true), (3/5, false), (7/10, false),
      (4/5, false), (9/10, false), (1, false), (1, true), (11/10, false), (6/5, false), (13/10, false), (7/5, false), (3/2, false), (3/2, true), (8/5, false), (17/10, false), (9/5, false),
      (19/10, false), (2, false)] : List (Rat × Bool)).map fun (t, b) => some (.reals (some [inputValue (XRat.fin t) b, .fin 0])) := by
  obtain ⟨⟨s, rows⟩, e, h⟩ := Outcome.exists_of_is (r := simulate2With (Feedthrough.model false : Model XRat _) .built feedthrough2 feedthroughInputs2 1 21 none)
    (p := fun x => decide (x.1 = .OK) && decide ((x.2.map fun r => r.values.head?) = ([(0, false), (1/10, false), (1/5, false), (3/10, false), (2/5, false), (1/2, false), (1/2, true), (3/5, false), (7/10, false),
      (4/5, false), (9/10, false), (1, false), (1, true), (11/10, false), (6/5, false), (13/10, false), (7/5, false), (3/2, false), (3/2, true), (8/5, false), (17/10, false), (9/5, false),
      (19/10, false), (2, false)] : List (Rat × Bool)).map fun (t, b) => some (.reals (some [inputValue (XRat.fin t) b, .fin 0])))) (by decide +kernel)
  simp only [Bool.and_eq_true, decide_eq_true_eq] at h
  obtain ⟨rfl, h⟩ := h
  exact ⟨rows, e, h⟩

end FMI2

namespace FMI3
section
variable {F D : Type} [Arith F] [HasInf F] {m : Model F D} {p : Profile F D}

/-- **C66** for FMI 3.0 with start values and inputs, all Reference FMUs for Model Exchange but StateSpace: if these are legal and the recorded variables of the
program are those of the FMU, then the program examples/simulate_fmi3_me.c returns `fmi3OK`, with rows for the times `0, h, …, N h`, one or two for each of
them. Only Stair may end the simulation earlier. If the FMU has no events of its own, then there are two rows for exactly the times at which an input
changes: those before and after. -/
theorem C66_inputs_partial (hm : Describes m p) {M : Macros} (hM : M = .built ∨ M = .meant m) (hme : m.modelExchange = true) {P : Program F (Op F)}
    (hr : ∀ op ∈ P.record, Gets m p op) {inp : Inputs F (Op F)} (hi : LegalInputs m p inp) {N : Nat} (hN : N < 2 ^ 64)
    (hstop : ∀ k ≤ N, (P.stopTime <=. timeAfter P.h k) = decide (k = N)) {fuel n : Nat} (hf : 0 < fuel) (hn : N < n) (resource : Ptr UInt8)
    (hneeds : ∀ c l, instantiateModelExchange m (some "instance1") (some m.token) resource false true true = (some c, l) → p.needs c.ctx) :
    ∃ rows, simulate3With m M P inp fuel n resource = .ret (.OK, rows) ∧
      (∃ k ≤ N + 1, Covers True (timeAfter P.h) k (rows.map Row.time) ∧ (Timeless m → k = N + 1)) ∧
      (Timeless m → M.nz = 0 → rows.map Row.time = inputTimes inp (timeAfter P.h) (N + 1)) := by
  obtain ⟨c, l, hc⟩ := createdME hm hme resource
  have hnc := hneeds c l hc
  obtain ⟨ht, w₀, vs, ha, ho⟩ := startedWith hm hc hnc hi (stop := P.stopTime)
  obtain ⟨s, e, hE⟩ := simulateWith_succeeds
    (drivesME hm ht hnc hr (cfg := ⟨M.nx, M.nz, P.h, P.stopTime, false⟩)
      (hM.imp (by rintro rfl; rfl) (by rintro rfl; rfl)) (hM.imp (by rintro rfl; rfl) (by rintro rfl; rfl))) (feeds hm ht hnc hi) hf hN hstop ho hn
  obtain ⟨w', v, et⟩ := hE.mode
  obtain ⟨k, hk, hcov, hend⟩ := hE.rows
  have hT : Timeless m → k = N + 1 ∧ Rows ⟨M.nx, M.nz, P.h, P.stopTime, false⟩ (Endless m) inp k (s.w.rows.map Row.time) := fun hT =>
    hend.resolve_right fun h => by have := (h.1 hT).2; rw [h.2] at this; cases this
  refine ⟨s.w.rows, ?_, ⟨k, hk, hcov, fun h => (hT h).1⟩, fun h hz => ?_⟩
  · unfold simulate3With
    rw [hc]
    simp only []
    rw [CALLS_ok (api := Importer.CoSim.api3 m 0 P.h) ha, e]
    simp only [Outcome.ret_bind, Bool.false_eq_true, if_false, hE.status]
    exact tearDown_ok (api := Importer.CoSim.api3 m 0 P.h) et
  · obtain ⟨rfl, hR⟩ := hT h
    exact hR.exact ⟨hz, fun i hi => hi h⟩

end

section
variable {F : Type} [Arith F] [HasInf F] {m : Model F (Feedthrough.Data F)} {p : Profile F (Feedthrough.Data F)}

theorem Sets.of {t : VType} {mode : Mode} (hmode : mode ∈ Spec.allowedIn (.set t)) {vrs : List Nat} {n : Nat} {v : List (t.Val F)}
    (hn : n = vrs.length) (hv : n = v.length) (hg : ∀ x ∈ v, t.Good x) (h : p.sets .modelExchange mode t (some vrs) n (some v)) :
    Sets m p mode (.set t (some vrs) n (some v) n) := by
  refine ⟨⟨t, rfl⟩, hmode, fun w h1 h2 => ⟨.inr ⟨by rw [h1, h2]; exact h, rfl⟩, .inr ⟨_, rfl, by omega⟩, .inr ⟨_, rfl, by omega⟩, fun l hl x hx => ?_⟩⟩
  cases hl
  exact hg x hx

theorem Sets.one {t : VType} {mode : Mode} (hmode : mode ∈ Spec.allowedIn (.set t)) {r : Nat} {x : t.Val F}
    (hg : t.Good x) (h : p.settable .modelExchange mode t r x) : Sets m p mode (.set t (some [r]) 1 (some [x]) 1) :=
  .of hmode rfl rfl (by simpa using hg) (Profile.sets_one h)

/-- The inputs that the program sets in Feedthrough are legal. -/
theorem legal_feedthrough (f32 : F → UInt32) : LegalInputs (Feedthrough.model true) (.feedthrough true : Profile F _) (feedthroughInputs3 f32) := by
  refine ⟨fun op h => ?_, fun t b op h mode hmode => ?_, fun t op h mode hmode => ?_⟩
  · simp only [feedthroughInputs3, List.mem_singleton] at h; subst h
    exact .one (by simp [Spec.allowedIn]) trivial ⟨.fixed, by simp [Profile.feedthrough, Profile.feedthroughVars], by simp [Access.allows], trivial⟩
  · simp only [feedthroughInputs3, List.mem_cons, List.not_mem_nil, or_false] at h
    simp only [List.mem_cons, List.not_mem_nil, or_false] at hmode
    rcases h with rfl | rfl
    all_goals
      exact .one (by rcases hmode with rfl | rfl | rfl <;> decide) trivial ⟨.always, by simp [Profile.feedthrough, Profile.feedthroughVars], by simp [Access.allows], trivial⟩
  · simp only [feedthroughInputs3, List.mem_cons, List.not_mem_nil, or_false] at h
    simp only [List.mem_cons, List.not_mem_nil, or_false] at hmode
    have allowed : ∀ t : VType, mode ∈ Spec.allowedIn (.set t) := by
      intro t; rcases hmode with rfl | rfl <;> cases t <;> decide
    have disc : Access.discrete.allows .modelExchange mode := by rcases hmode with rfl | rfl <;> simp [Access.allows]
    rcases h with rfl | rfl | rfl | rfl | rfl | rfl | rfl | rfl | rfl | rfl | rfl | rfl | rfl | rfl
    case inr.inl =>
      refine .of (allowed _) rfl rfl (by simp [VType.Good]) (Profile.sets_two ⟨.discrete, ?_, disc, trivial⟩ ⟨.discrete, ?_, disc, trivial⟩)
      all_goals simp [Profile.feedthrough, Profile.feedthroughVars]
    case inl =>
      exact .one (allowed _) trivial ⟨.discrete, by simp [Profile.feedthrough, Profile.feedthroughVars], disc, trivial⟩
    all_goals
      refine .one (allowed _) ?_ ⟨.always, by simp [Profile.feedthrough, Profile.feedthroughVars], by simp [Access.allows], ?_⟩
    all_goals first
      | exact trivial
      | (simp [Profile.feedthrough, Profile.feedthroughAdmits]; done)
      | (simp [VType.Good, Importer.CoSim.Feedthrough.text]; done)
      | (exact ⟨_, rfl, by change 3 ≤ _; split <;> decide +kernel⟩)
      | (exact ⟨_, rfl, by split <;> decide +kernel⟩)
      | (simp [Profile.feedthrough, Profile.feedthroughAdmits, Importer.CoSim.Feedthrough.range, Importer.CoSim.Feedthrough.bytes])

theorem gets_feedthrough (f32 : F → UInt32) : ∀ op ∈ (feedthrough3 f32).record, Gets (Feedthrough.model true) (.feedthrough true) op := by
  intro op h
  simp only [feedthrough3, List.mem_cons, List.not_mem_nil, or_false] at h
  rcases h with rfl | rfl | rfl | rfl | rfl | rfl | rfl | rfl | rfl | rfl | rfl | rfl | rfl
  all_goals exact .get rfl rfl (by simp [Profile.declares, Profile.feedthrough, Profile.feedthroughVars])

end

/-- The program for Feedthrough: 24 rows, two for 0.5, 1 and 1.5. -/
theorem C66_feedthrough (f32 : XRat → UInt32) (resource : Ptr UInt8) :
    ∃ rows, simulate3With (Feedthrough.model true) .built (feedthrough3 f32) (feedthroughInputs3 f32) 1 21 resource = .ret (.OK, rows) ∧
    rows.map Row.time = ([0, 1/10, 1/5, 3/10, 2/5, 1/2, 1/2, 3/5, 7/10, 4/5, 9/10, 1, 1, 11/10, 6/5, 13/10, 7/5, 3/2, 3/2, 8/5, 17/10, 9/5, 19/10, 2] : List Rat).map XRat.fin := by
  obtain ⟨rows, e, -, h⟩ := C66_inputs_partial (F := XRat) .feedthrough (.inl rfl) rfl (P := feedthrough3 f32) (gets_feedthrough f32) (legal_feedthrough f32) (N := 20) (n := 21) (fuel := 1)
    (by decide) (stop_multiple (h := 1/10) (stop := 2) (by decide +kernel) (by decide +kernel)) (by decide) (by decide) resource fun _ _ _ => trivial
  exact ⟨rows, e, (h .feedthrough rfl).trans (by change inputTimes (O := Unit) { next := nextInput } (timeAfter (XRat.fin (1/10))) 21 = _; decide +kernel)⟩

end FMI3
end Verif
