import Verif.Lemmas.DriverME
import Verif.Lemmas.Programs
import Verif.Examples

/-!
# C66: the simulation programs for Model Exchange run the Reference FMUs to completion
-/

set_option linter.unusedSectionVars false

namespace Verif
open Importer.CoSim

/-! ## Consequences of the specification -/

section
variable {F : Type} {events : Prop} {t : Nat → F}

/-- All times are there. -/
theorem Covers.mem {k : Nat} {l : List F} (h : Covers events t k l) : ∀ i < k, t i ∈ l := by
  induction h with
  | zero => intro i hi; omega
  | once _ ih | twice _ _ ih =>
    intro i hi
    rcases Nat.lt_succ_iff_lt_or_eq.1 hi with h | rfl
    · simp [ih i h]
    · simp

/-- One or two rows for each. -/
theorem Covers.length {k : Nat} {l : List F} (h : Covers events t k l) : k ≤ l.length ∧ l.length ≤ 2 * k := by
  induction h with
  | zero => simp
  | once _ ih | twice _ _ ih => simp; omega

/-- Without events there is exactly one row for each time. -/
theorem Covers.eq {k : Nat} {l : List F} (h : Covers events t k l) (he : ¬events) : l = (List.range k).map t := by
  induction h with
  | zero => rfl
  | once _ ih => simp [List.range_succ, ih]
  | twice h => exact absurd h he

theorem Covers.weaken {events' : Prop} (he : events → events') {k : Nat} {l : List F} (h : Covers events t k l) : Covers events' t k l := by
  induction h with
  | zero => exact .zero
  | once _ ih => exact .once ih
  | twice h _ ih => exact .twice (he h) ih

end

/-- The stop time is reached with step `N`. -/
theorem stop_after {h stop : Rat} (h0 : 0 < h) {N : Nat} (h1 : stop ≤ N * h) (h2 : ∀ k : Nat, k < N → k * h < stop) :
    ∀ k ≤ N, (XRat.fin stop <=. timeAfter (XRat.fin h) k) = decide (k = N) := by
  intro k hk
  have e : timeAfter (XRat.fin h) k = XRat.fin (k * h) := by
    unfold timeAfter
    split
    · next h => subst h; simp
    · exact XRat.mul_fin _ _
  rw [e]
  change decide (stop ≤ (k : Rat) * h) = _
  rw [decide_eq_decide]
  constructor
  · intro h3
    rcases Nat.lt_or_ge k N with h4 | h4
    · exact absurd h3 (not_le.2 (h2 k h4))
    · omega
  · rintro rfl; exact h1

/-- The stop time is a multiple of the step size. -/
theorem stop_multiple {h stop : Rat} (h0 : 0 < h) {N : Nat} (h1 : stop = N * h) :
    ∀ k ≤ N, (XRat.fin stop <=. timeAfter (XRat.fin h) k) = decide (k = N) := by
  subst h1
  exact stop_after h0 (le_refl _) fun k hk => mul_lt_mul_of_pos_right (by exact_mod_cast hk) h0

theorem finite_times {h : Rat} (k : Nat) : ((HasInf.inf : XRat) <=. timeAfter (XRat.fin h) k) = false := by
  unfold timeAfter
  split <;> rfl

namespace FMI2
section
variable {F D : Type} [Arith F] [HasInf F] {m : Model F D} {p : Profile F D}

theorem Gets.getReal {vrs : List Nat} {n : Nat} {v : List F} (hn : n = vrs.length) (hv : n = v.length) (h : ∀ r ∈ vrs, p.declares .float64 r) :
    Gets m p (.getReal (some vrs) n (some v)) := by
  subst hn
  refine ⟨by simp [Op.fn], fun w => ⟨⟨Profile.gets_of h, by simp⟩, .inr ⟨_, rfl, Nat.le_refl _⟩, .inr ⟨_, rfl, by omega⟩⟩⟩

theorem Gets.getInteger {vrs : List Nat} {n : Nat} {v : List Int} (hn : n = vrs.length) (hv : n = v.length) (h : ∀ r ∈ vrs, p.declares .int32 r) :
    Gets m p (.getInteger (some vrs) n (some v)) := by
  subst hn
  refine ⟨by simp [Op.fn], fun w => ⟨⟨Profile.gets_of h, by simp⟩, .inr ⟨_, rfl, Nat.le_refl _⟩, .inr ⟨_, rfl, by omega⟩⟩⟩

/-- The program ends without errors. `M` are the macros `NX` and `NZ`: 0 as the program is built, or the numbers of the FMU. -/
theorem C66_ended (hm : Describes m p) {M : Importer.Euler.Macros} (hM : M = .built ∨ M = .meant m) {P : Program F (Op F)} (hr : ∀ op ∈ P.record, Gets m p op) {N : Nat} (hN : N < 2 ^ 64)
    (hstop : ∀ k ≤ N, (P.stopTime <=. timeAfter P.h k) = decide (k = N)) {fuel n : Nat} (hf : 0 < fuel) (hn : N < n) (resource : Ptr UInt8)
    (hneeds : ∀ c l, instantiate m (some "instance1") .modelExchange (some m.token) resource (some true) false true = (some c, l) → p.needs c.ctx) :
    ∃ rows, Importer.Euler.simulate2 m M P fuel n resource = .ret (.OK, rows) ∧
      ∃ k ≤ N + 1, Covers (¬Importer.Euler.Eventless ⟨M.nx, M.nz, P.h, P.stopTime, true⟩ (Endless m) N) (timeAfter P.h) k (rows.map Row.time) ∧
        (Timeless m → k = N + 1) := by
  obtain ⟨c, l, hc⟩ := createdME hm resource
  have hnc := hneeds c l hc
  obtain ⟨w₀, vs, ha, ho⟩ := startedME hm hc hnc (stop := P.stopTime)
  have ht : c.ctx.typ = .modelExchange := (createModelInstance_ctx (show createModelInstance m false true false (some "instance1") (some m.token)
    resource false true .modelExchange = (some c, l) from hc)).1
  obtain ⟨s, e, hE⟩ := Importer.Euler.simulate_succeeds
    (drivesME hm ht hnc hr (cfg := ⟨M.nx, M.nz, P.h, P.stopTime, true⟩)
      (hM.imp (by rintro rfl; rfl) (by rintro rfl; rfl)) (hM.imp (by rintro rfl; rfl) (by rintro rfl; rfl))) hf hN hstop ho hn
  obtain ⟨w', v, et⟩ := hE.mode
  obtain ⟨k, hk, hcov, hend⟩ := hE.rows
  refine ⟨s.w.rows, ?_, k, hk, hcov, fun hT => hend.resolve_right fun h => by have := (h.1 hT).2; rw [h.2] at this; cases this⟩
  unfold Importer.Euler.simulate2
  rw [hc]
  simp only []
  rw [CALLS_ok (api := api2 m 0 P.h) ha, e]
  simp only [Outcome.ret_bind, Bool.false_eq_true, if_false, hE.status]
  exact tearDown_ok (api := api2 m 0 P.h) et

/-- **C66** for FMI 2.0: if the recorded variables of the program are those of the FMU, then the program examples/simulate_fmi2_me.c returns
`fmi2OK`: no call fails, no event iteration goes on for ever, and the program ends with the first of the times `0, h, 2 h, …` at or after
the stop time (`N h`). The results are those for these times, with a second row for the values after an event. Only Stair may end
the simulation earlier. The number of passes that the model provides must suffice: `N + 1` for the program, one for an event
iteration. This holds for the programs as they are built (`NX` and `NZ` are 0, see `Macros.built`), and if `NX` and `NZ` were the numbers of states and
event indicators of the FMU. What the programs as built record is the subject of C78. -/
theorem C66 (hm : Describes m p) {M : Importer.Euler.Macros} (hM : M = .built ∨ M = .meant m) {P : Program F (Op F)} (hr : ∀ op ∈ P.record, Gets m p op) {N : Nat} (hN : N < 2 ^ 64)
    (hstop : ∀ k ≤ N, (P.stopTime <=. timeAfter P.h k) = decide (k = N)) {fuel n : Nat} (hf : 0 < fuel) (hn : N < n) (resource : Ptr UInt8)
    (hneeds : ∀ c l, instantiate m (some "instance1") .modelExchange (some m.token) resource (some true) false true = (some c, l) → p.needs c.ctx) :
    ∃ rows, Importer.Euler.simulate2 m M P fuel n resource = .ret (.OK, rows) ∧
      ∃ k ≤ N + 1, Covers True (timeAfter P.h) k (rows.map Row.time) ∧ (Timeless m → k = N + 1) := by
  obtain ⟨rows, e, k, hk, hc, h⟩ := C66_ended hm hM hr hN hstop hf hn resource hneeds
  exact ⟨rows, e, k, hk, hc.weaken fun _ => trivial, h⟩

/-- **C66** for the programs without events (`NZ` is 0, not Stair): there is exactly one row for each of the times. -/
theorem C66_no_events (hm : Describes m p) {M : Importer.Euler.Macros} (hM : M = .built ∨ M = .meant m) (hT : Timeless m) (hz : M.nz = 0) {P : Program F (Op F)} (hr : ∀ op ∈ P.record, Gets m p op) {N : Nat}
    (hN : N < 2 ^ 64) (hstop : ∀ k ≤ N, (P.stopTime <=. timeAfter P.h k) = decide (k = N))
    (hfin : ∀ k ≤ N, ((HasInf.inf : F) <=. timeAfter P.h k) = false) {fuel n : Nat} (hf : 0 < fuel) (hn : N < n) (resource : Ptr UInt8)
    (hneeds : ∀ c l, instantiate m (some "instance1") .modelExchange (some m.token) resource (some true) false true = (some c, l) → p.needs c.ctx) :
    ∃ rows, Importer.Euler.simulate2 m M P fuel n resource = .ret (.OK, rows) ∧ rows.map Row.time = (List.range (N + 1)).map (timeAfter P.h) := by
  obtain ⟨rows, e, k, hk, hc, h⟩ := C66_ended hm hM hr hN hstop hf hn resource hneeds
  obtain rfl := h hT
  exact ⟨rows, e, hc.eq fun hn => hn ⟨hz, fun i hi => hi hT, hfin⟩⟩

end

/-! The hypotheses hold for the programs of the FMUs without inputs, as they are built; the numbers are those of the example programs. -/

example (resource : Ptr UInt8) : ∃ rows, Importer.Euler.simulate2 BouncingBall.model .built bouncingBall2 1 3001 resource = .ret (.OK, rows) ∧
    ∃ k ≤ 3001, Covers True (timeAfter (XRat.fin (1/1000))) k (rows.map Row.time) ∧ (Timeless (BouncingBall.model : Model XRat _) → k = 3001) :=
  C66 .bouncingBall (.inl rfl) (P := bouncingBall2) (N := 3000) (fun op h => by
    simp only [bouncingBall2, List.mem_singleton] at h; subst h
    exact .getReal rfl rfl (by simp [Profile.declares, Profile.bouncingBall])) (by decide) (stop_multiple (by decide +kernel) (by decide +kernel))
    (by decide) (by decide) resource fun _ _ _ => trivial

example (resource : Ptr UInt8) : ∃ rows, Importer.Euler.simulate2 Dahlquist.model .built dahlquist2 1 101 resource = .ret (.OK, rows) ∧
    rows.map Row.time = (List.range 101).map (timeAfter (XRat.fin (1/10))) :=
  C66_no_events .dahlquist (.inl rfl) .dahlquist rfl (P := dahlquist2) (N := 100) (fun op h => by
    simp only [dahlquist2, List.mem_singleton] at h; subst h
    exact .getReal rfl rfl (by simp [Profile.declares, Profile.dahlquist])) (by decide) (stop_multiple (by decide +kernel) (by decide +kernel))
    (fun k _ => finite_times k) (by decide) (by decide) resource fun _ _ _ => trivial

example (resource : Ptr UInt8) : ∃ rows, Importer.Euler.simulate2 VanDerPol.model .built vanDerPol2 1 2001 resource = .ret (.OK, rows) ∧
    rows.map Row.time = (List.range 2001).map (timeAfter (XRat.fin (1/100))) :=
  C66_no_events .vanDerPol (.inl rfl) .vanDerPol rfl (P := vanDerPol2) (N := 2000) (fun op h => by
    simp only [vanDerPol2, List.mem_singleton] at h; subst h
    exact .getReal rfl rfl (by simp [Profile.declares, Profile.vanDerPol])) (by decide) (stop_multiple (by decide +kernel) (by decide +kernel))
    (fun k _ => finite_times k) (by decide) (by decide) resource fun _ _ _ => trivial

/-- The stop time need not be a multiple of the step size (compare `C65_not_multiple`): the program stops after it. -/
example (resource : Ptr UInt8) : ∃ rows, Importer.Euler.simulate2 Dahlquist.model .built { dahlquist2 with h := XRat.fin (2/5), stopTime := XRat.fin 1 } 1 4 resource =
    .ret (.OK, rows) ∧ rows.map Row.time = (List.range 4).map (timeAfter (XRat.fin (2/5))) :=
  C66_no_events .dahlquist (.inl rfl) .dahlquist rfl (P := { dahlquist2 with h := XRat.fin (2/5), stopTime := XRat.fin 1 }) (N := 3) (fun op h => by
    simp only [dahlquist2, List.mem_singleton] at h; subst h
    exact .getReal rfl rfl (by simp [Profile.declares, Profile.dahlquist])) (by decide) (stop_after (by decide +kernel) (by decide +kernel)
      (fun k hk => by match k, hk with | 0, _ => decide +kernel | 1, _ => decide +kernel | 2, _ => decide +kernel))
    (fun k _ => finite_times k) (by decide) (by decide) resource fun _ _ _ => trivial

/-- Resource needs its file: here any file that the resource location leads to. -/
example {fs : Resource.FileSystem} {resource : Ptr UInt8} {path b} (h1 : Resource.resourcePath false resource = .ret (.path path))
    (h2 : fs path = some b) : ∃ rows, Importer.Euler.simulate2 (Resource.model false fs) .built resource2 1 2 resource = .ret (.OK, rows) ∧
    rows.map Row.time = (List.range 2).map (timeAfter (XRat.fin 1)) :=
  C66_no_events (.resource fs) (.inl rfl) (.resource fs) rfl (P := resource2) (N := 1) (fun op h => by
    simp only [resource2, List.mem_singleton] at h; subst h
    exact .getInteger rfl rfl (by simp [Profile.declares, Profile.resource])) (by decide) (stop_multiple (by decide +kernel) (by decide +kernel))
    (fun k _ => finite_times k) (by decide) (by decide) resource fun c l hc => by cases hc; exact ⟨path, b, h1, h2⟩

/-- Stair has events at 1, 2, …, and ends the simulation at 9: there is one row for 9, the simulation ends before the second. -/
example : ∃ rows, Importer.Euler.simulate2 Stair.model .built stair2 1 51 none = .ret (.OK, rows) ∧
    (∃ k ≤ 51, Covers True (timeAfter (XRat.fin (1/5))) k (rows.map Row.time) ∧ (Timeless (Stair.model : Model XRat _) → k = 51)) ∧
    rows.length = 54 ∧ (rows.map Row.time).drop 52 = [.fin (44/5), .fin 9] ∧ (rows.map Row.time).take 8 =
      [.fin 0, .fin (1/5), .fin (2/5), .fin (3/5), .fin (4/5), .fin 1, .fin 1, .fin (6/5)] := by
  obtain ⟨rows, h1, h2⟩ := C66 .stair (.inl rfl) (P := stair2) (N := 50) (n := 51) (fuel := 1) (fun op h => by
    simp only [stair2, List.mem_singleton] at h; subst h
    exact .getInteger rfl rfl (by simp [Profile.declares, Profile.stair])) (by decide) (stop_multiple (by decide +kernel) (by decide +kernel))
    (by decide) (by decide) none fun _ _ _ => trivial
  refine ⟨rows, h1, h2, ?_⟩
  have : (Importer.Euler.simulate2 Stair.model .built stair2 1 51 none).is (fun x => decide (x.2.length = 54) &&
      decide ((x.2.map Row.time).drop 52 = [XRat.fin (44/5), XRat.fin 9]) && decide ((x.2.map Row.time).take 8 =
      [XRat.fin 0, .fin (1/5), .fin (2/5), .fin (3/5), .fin (4/5), .fin 1, .fin 1, .fin (6/5)])) = true := by
    decide +kernel
  rw [h1] at this
  simp only [Outcome.is, Bool.and_eq_true, decide_eq_true_eq] at this
  exact ⟨this.1.1, this.1.2, this.2⟩

end FMI2

namespace FMI3
section
variable {F D : Type} [Arith F] [HasInf F] {m : Model F D} {p : Profile F D}

theorem Gets.get {t : VType} {vrs : List Nat} {n : Nat} {v : List (t.Val F)} (hn : n = vrs.length) (hv : n = v.length)
    (h : ∀ r ∈ vrs, p.declares t r) : Gets m p (.get t (some vrs) n (some v) n) := by
  subst hn
  refine ⟨⟨t, rfl⟩, fun w => ⟨.inr ⟨Profile.gets_of h, by simp, by split <;> simp⟩, .inr ⟨_, rfl, Nat.le_refl _⟩, .inr ⟨_, rfl, by omega⟩⟩⟩

/-- The program ends without errors. `M` are the macros `NX` and `NZ`: 0 as the program is built, or the numbers of the FMU. -/
theorem C66_ended (hm : Describes m p) {M : Importer.Euler.Macros} (hM : M = .built ∨ M = .meant m) (hme : m.modelExchange = true) {P : Program F (Op F)} (hr : ∀ op ∈ P.record, Gets m p op) {N : Nat} (hN : N < 2 ^ 64)
    (hstop : ∀ k ≤ N, (P.stopTime <=. timeAfter P.h k) = decide (k = N)) {fuel n : Nat} (hf : 0 < fuel) (hn : N < n) (resource : Ptr UInt8)
    (hneeds : ∀ c l, instantiateModelExchange m (some "instance1") (some m.token) resource false true true = (some c, l) → p.needs c.ctx) :
    ∃ rows, Importer.Euler.simulate3 m M P fuel n resource = .ret (.OK, rows) ∧
      ∃ k ≤ N + 1, Covers (¬Importer.Euler.Eventless ⟨M.nx, M.nz, P.h, P.stopTime, false⟩ (Endless m) N) (timeAfter P.h) k (rows.map Row.time) ∧
        (Timeless m → k = N + 1) := by
  obtain ⟨c, l, hc⟩ := createdME hm hme resource
  have hnc := hneeds c l hc
  obtain ⟨ht, w₀, vs, ha, ho⟩ := startedME hm hc hnc (stop := P.stopTime)
  obtain ⟨s, e, hE⟩ := Importer.Euler.simulate_succeeds
    (drivesME hm ht hnc hr (cfg := ⟨M.nx, M.nz, P.h, P.stopTime, false⟩)
      (hM.imp (by rintro rfl; rfl) (by rintro rfl; rfl)) (hM.imp (by rintro rfl; rfl) (by rintro rfl; rfl))) hf hN hstop ho hn
  obtain ⟨w', v, et⟩ := hE.mode
  obtain ⟨k, hk, hcov, hend⟩ := hE.rows
  refine ⟨s.w.rows, ?_, k, hk, hcov, fun hT => hend.resolve_right fun h => by have := (h.1 hT).2; rw [h.2] at this; cases this⟩
  unfold Importer.Euler.simulate3
  rw [hc]
  simp only []
  rw [CALLS_ok (api := api3 m 0 P.h) ha, e]
  simp only [Outcome.ret_bind, Bool.false_eq_true, if_false, hE.status]
  exact tearDown_ok (api := api3 m 0 P.h) et

/-- **C66** for FMI 3.0, all Reference FMUs for Model Exchange but StateSpace: if the recorded variables of the program are those of the FMU, then the program examples/simulate_fmi3_me.c returns
`fmi3OK`: no call fails, no event iteration goes on for ever, and the program ends with the first of the times `0, h, 2 h, …` at or after
the stop time (`N h`). The results are those for these times, with a second row for the values after an event. Only Stair may end
the simulation earlier. The number of passes that the model provides must suffice: `N + 1` for the program, one for an event
iteration. This holds for the programs as they are built (`NX` and `NZ` are 0, see `Macros.built`), and if `NX` and `NZ` were the numbers of states and
event indicators of the FMU. What the programs as built record is the subject of C78. -/
theorem C66_partial (hm : Describes m p) {M : Importer.Euler.Macros} (hM : M = .built ∨ M = .meant m) (hme : m.modelExchange = true) {P : Program F (Op F)} (hr : ∀ op ∈ P.record, Gets m p op) {N : Nat} (hN : N < 2 ^ 64)
    (hstop : ∀ k ≤ N, (P.stopTime <=. timeAfter P.h k) = decide (k = N)) {fuel n : Nat} (hf : 0 < fuel) (hn : N < n) (resource : Ptr UInt8)
    (hneeds : ∀ c l, instantiateModelExchange m (some "instance1") (some m.token) resource false true true = (some c, l) → p.needs c.ctx) :
    ∃ rows, Importer.Euler.simulate3 m M P fuel n resource = .ret (.OK, rows) ∧
      ∃ k ≤ N + 1, Covers True (timeAfter P.h) k (rows.map Row.time) ∧ (Timeless m → k = N + 1) := by
  obtain ⟨rows, e, k, hk, hc, h⟩ := C66_ended hm hM hme hr hN hstop hf hn resource hneeds
  exact ⟨rows, e, k, hk, hc.weaken fun _ => trivial, h⟩

/-- **C66** for the programs without events (`NZ` is 0, not Stair and StateSpace): there is exactly one row for each of the times. -/
theorem C66_no_events_partial (hm : Describes m p) {M : Importer.Euler.Macros} (hM : M = .built ∨ M = .meant m) (hme : m.modelExchange = true) (hT : Timeless m) (hz : M.nz = 0) {P : Program F (Op F)} (hr : ∀ op ∈ P.record, Gets m p op) {N : Nat}
    (hN : N < 2 ^ 64) (hstop : ∀ k ≤ N, (P.stopTime <=. timeAfter P.h k) = decide (k = N))
    (hfin : ∀ k ≤ N, ((HasInf.inf : F) <=. timeAfter P.h k) = false) {fuel n : Nat} (hf : 0 < fuel) (hn : N < n) (resource : Ptr UInt8)
    (hneeds : ∀ c l, instantiateModelExchange m (some "instance1") (some m.token) resource false true true = (some c, l) → p.needs c.ctx) :
    ∃ rows, Importer.Euler.simulate3 m M P fuel n resource = .ret (.OK, rows) ∧ rows.map Row.time = (List.range (N + 1)).map (timeAfter P.h) := by
  obtain ⟨rows, e, k, hk, hc, h⟩ := C66_ended hm hM hme hr hN hstop hf hn resource hneeds
  obtain rfl := h hT
  exact ⟨rows, e, hc.eq fun hn => hn ⟨hz, fun i hi => hi hT, hfin⟩⟩

end

/-! The hypotheses hold for the programs of the FMUs without inputs, as they are built; the numbers are those of the example programs. -/

example (resource : Ptr UInt8) : ∃ rows, Importer.Euler.simulate3 BouncingBall.model .built bouncingBall3 1 3001 resource = .ret (.OK, rows) ∧
    ∃ k ≤ 3001, Covers True (timeAfter (XRat.fin (1/1000))) k (rows.map Row.time) ∧ (Timeless (BouncingBall.model : Model XRat _) → k = 3001) :=
  C66_partial .bouncingBall (.inl rfl) rfl (P := bouncingBall3) (N := 3000) (fun op h => by
    simp only [bouncingBall3, List.mem_singleton] at h; subst h
    exact .get rfl rfl (by simp [Profile.declares, Profile.bouncingBall])) (by decide) (stop_multiple (by decide +kernel) (by decide +kernel))
    (by decide) (by decide) resource fun _ _ _ => trivial

example (resource : Ptr UInt8) : ∃ rows, Importer.Euler.simulate3 Dahlquist.model .built dahlquist3 1 101 resource = .ret (.OK, rows) ∧
    rows.map Row.time = (List.range 101).map (timeAfter (XRat.fin (1/10))) :=
  C66_no_events_partial .dahlquist (.inl rfl) rfl .dahlquist rfl (P := dahlquist3) (N := 100) (fun op h => by
    simp only [dahlquist3, List.mem_singleton] at h; subst h
    exact .get rfl rfl (by simp [Profile.declares, Profile.dahlquist])) (by decide) (stop_multiple (by decide +kernel) (by decide +kernel))
    (fun k _ => finite_times k) (by decide) (by decide) resource fun _ _ _ => trivial

example (resource : Ptr UInt8) : ∃ rows, Importer.Euler.simulate3 VanDerPol.model .built vanDerPol3 1 2001 resource = .ret (.OK, rows) ∧
    rows.map Row.time = (List.range 2001).map (timeAfter (XRat.fin (1/100))) :=
  C66_no_events_partial .vanDerPol (.inl rfl) rfl .vanDerPol rfl (P := vanDerPol3) (N := 2000) (fun op h => by
    simp only [vanDerPol3, List.mem_singleton] at h; subst h
    exact .get rfl rfl (by simp [Profile.declares, Profile.vanDerPol])) (by decide) (stop_multiple (by decide +kernel) (by decide +kernel))
    (fun k _ => finite_times k) (by decide) (by decide) resource fun _ _ _ => trivial

/-- The stop time need not be a multiple of the step size (compare `C65_not_multiple`): the program stops after it. -/
example (resource : Ptr UInt8) : ∃ rows, Importer.Euler.simulate3 Dahlquist.model .built { dahlquist3 with h := XRat.fin (2/5), stopTime := XRat.fin 1 } 1 4 resource =
    .ret (.OK, rows) ∧ rows.map Row.time = (List.range 4).map (timeAfter (XRat.fin (2/5))) :=
  C66_no_events_partial .dahlquist (.inl rfl) rfl .dahlquist rfl (P := { dahlquist3 with h := XRat.fin (2/5), stopTime := XRat.fin 1 }) (N := 3) (fun op h => by
    simp only [dahlquist3, List.mem_singleton] at h; subst h
    exact .get rfl rfl (by simp [Profile.declares, Profile.dahlquist])) (by decide) (stop_after (by decide +kernel) (by decide +kernel)
      (fun k hk => by match k, hk with | 0, _ => decide +kernel | 1, _ => decide +kernel | 2, _ => decide +kernel))
    (fun k _ => finite_times k) (by decide) (by decide) resource fun _ _ _ => trivial

/-- Resource needs its file: here any file that the resource location leads to. -/
example {fs : Resource.FileSystem} {resource : Ptr UInt8} {path b} (h1 : Resource.resourcePath true resource = .ret (.path path))
    (h2 : fs path = some b) : ∃ rows, Importer.Euler.simulate3 (Resource.model true fs) .built resource3 1 2 resource = .ret (.OK, rows) ∧
    rows.map Row.time = (List.range 2).map (timeAfter (XRat.fin 1)) :=
  C66_no_events_partial (.resource fs) (.inl rfl) rfl (.resource fs) rfl (P := resource3) (N := 1) (fun op h => by
    simp only [resource3, List.mem_singleton] at h; subst h
    exact .get rfl rfl (by simp [Profile.declares, Profile.resource])) (by decide) (stop_multiple (by decide +kernel) (by decide +kernel))
    (fun k _ => finite_times k) (by decide) (by decide) resource fun c l hc => by cases hc; exact ⟨path, b, h1, h2⟩

/-- Stair has events at 1, 2, …, and ends the simulation at 9: there is one row for 9, the simulation ends before the second. -/
example : ∃ rows, Importer.Euler.simulate3 Stair.model .built stair3 1 51 none = .ret (.OK, rows) ∧
    (∃ k ≤ 51, Covers True (timeAfter (XRat.fin (1/5))) k (rows.map Row.time) ∧ (Timeless (Stair.model : Model XRat _) → k = 51)) ∧
    rows.length = 54 ∧ (rows.map Row.time).drop 52 = [.fin (44/5), .fin 9] ∧ (rows.map Row.time).take 8 =
      [.fin 0, .fin (1/5), .fin (2/5), .fin (3/5), .fin (4/5), .fin 1, .fin 1, .fin (6/5)] := by
  obtain ⟨rows, h1, h2⟩ := C66_partial .stair (.inl rfl) rfl (P := stair3) (N := 50) (n := 51) (fuel := 1) (fun op h => by
    simp only [stair3, List.mem_singleton] at h; subst h
    exact .get rfl rfl (by simp [Profile.declares, Profile.stair])) (by decide) (stop_multiple (by decide +kernel) (by decide +kernel))
    (by decide) (by decide) none fun _ _ _ => trivial
  refine ⟨rows, h1, h2, ?_⟩
  have : (Importer.Euler.simulate3 Stair.model .built stair3 1 51 none).is (fun x => decide (x.2.length = 54) &&
      decide ((x.2.map Row.time).drop 52 = [XRat.fin (44/5), XRat.fin 9]) && decide ((x.2.map Row.time).take 8 =
      [XRat.fin 0, .fin (1/5), .fin (2/5), .fin (3/5), .fin (4/5), .fin 1, .fin 1, .fin (6/5)])) = true := by
    decide +kernel
  rw [h1] at this
  simp only [Outcome.is, Bool.and_eq_true, decide_eq_true_eq] at this
  exact ⟨this.1.1, this.1.2, this.2⟩

/-- A program for Roberts (Roberts/config.h 15, 16; there is none in examples), with the recorded variables `y1`, `y2`, `y3`. -/
def roberts3 : Program XRat (Op XRat) where
  record := [.get .float64 (some [2, 4, 6]) 3 (some [.fin 0, .fin 0, .fin 0]) 3]
  h := .fin (1/1000000)
  stopTime := .fin 1

example (resource : Ptr UInt8) : ∃ rows, Importer.Euler.simulate3 Roberts.model .built roberts3 1 1000001 resource = .ret (.OK, rows) ∧
    ∃ k ≤ 1000001, Covers True (timeAfter (XRat.fin (1/1000000))) k (rows.map Row.time) ∧ (Timeless (Roberts.model : Model XRat _) → k = 1000001) :=
  C66_partial .roberts (.inl rfl) rfl (P := roberts3) (N := 1000000) (fun op h => by
    simp only [roberts3, List.mem_singleton] at h; subst h
    exact .get rfl rfl (by simp [Profile.declares, Profile.roberts])) (by decide) (stop_multiple (by decide +kernel) (by decide +kernel))
    (by decide) (by decide) resource fun _ _ _ => trivial

end FMI3

end Verif
