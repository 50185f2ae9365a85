import Verif.Lemmas.Recorded
import Verif.Props.C78

/-!
# C78: what the Model Exchange programs record, with the macros `NX` and `NZ` as they are meant
-/

set_option linter.unusedSectionVars false

namespace Verif
open Importer.CoSim

/-- Rows at different times are in the order of the times. -/
theorem rows_at {F V : Type} {t : Nat → F} (ht : ∀ i j, t i = t j → i = j) {v : Nat → List V} {n : Nat} {rows : List (Row F V)}
    (h : rows.map Row.time = (List.range n).map t) (hv : ∀ r ∈ rows, ∃ k, r.time = t k ∧ r.values = v k) :
    rows = (List.range n).map fun k => ⟨t k, v k⟩ := by
  have hl : rows.length = n := by simpa using congrArg List.length h
  refine List.ext_getElem (by simp [hl]) fun i h1 h2 => ?_
  obtain ⟨k, e1, e2⟩ := hv rows[i] (List.getElem_mem h1)
  have e3 : rows[i].time = t i := by
    have := congrArg (fun l => l[i]?) h
    simpa [h1, hl ▸ h1] using this
  obtain rfl := ht _ _ (e3.symm.trans e1)
  simp only [List.getElem_map, List.getElem_range]
  rw [← e1, ← e2]

theorem timeAfter_fin (h : Rat) (k : Nat) : timeAfter (XRat.fin h) k = XRat.fin (k * h) := by
  unfold timeAfter
  split
  · next h => subst h; simp
  · exact XRat.mul_fin _ _

theorem timeAfter_inj {h : Rat} (h0 : 0 < h) (i j : Nat) (e : timeAfter (XRat.fin h) i = timeAfter (XRat.fin h) j) : i = j := by
  rw [timeAfter_fin, timeAfter_fin] at e
  exact_mod_cast mul_right_cancel₀ (ne_of_gt h0) (XRat.fin.inj e)

theorem Dahlquist.holds_steps (n : Nat) {d : Dahlquist.Data XRat} (h : Dahlquist.Holds 1 d) :
    Dahlquist.Holds ((9 / 10) ^ n) ((Dahlquist.ode (F := XRat)).steps n d) := by
  induction n with
  | zero => simpa [Ode.steps] using h
  | succ n ih =>
    obtain ⟨h1, h2⟩ := ih
    rw [Ode.steps_add _ n 1]
    simp only [Dahlquist.Holds, Ode.steps, Ode.euler, Dahlquist.ode, Dahlquist.model, eulerUpdate] at h1 h2 ⊢
    simp only [h1, h2, XRat.lit_eq, XRat.mul_fin, XRat.neg_fin,
      XRat.add_fin, if_neg (show ¬(1 = 0) by decide), List.getD_cons_zero]
    refine ⟨?_, trivial⟩
    congr 1
    ring

/-- The start of the ball. -/
theorem thrown : BouncingBall.Flies ⟨1, 0, -981 / 100, 7 / 10⟩ := .inl (by decide +kernel)

namespace FMI2

/-- **C78** for Model Exchange, Dahlquist, FMI 2.0, if the macros `NX` and `NZ` had the meant values: the program examples/simulate_fmi2_me.c ends without
error, and the row number `k` shows `(9/10)^k`, the result of `k` explicit Euler steps. -/
theorem C78_partial_meant_dahlquist {N : Nat} (hN : N + 1 < 2 ^ 64) {fuel n : Nat} (hf : 0 < fuel) (hn : N < n) (resource : Ptr UInt8) :
    Importer.Euler.simulate2 Dahlquist.model (.meant (Dahlquist.model (F := XRat))) { dahlquist2 with h := XRat.fin (1 / 10), stopTime := XRat.fin (N * (1 / 10)) } fuel n resource =
      .ret (.OK, (List.range (N + 1)).map fun (k : Nat) => ⟨XRat.fin (k * (1 / 10)), [.reals (some [XRat.fin ((9 / 10) ^ k)])]⟩) := by
  obtain ⟨rows, e, ⟨k, -, hc, hk⟩, hv⟩ := recordedME (d := ⟨Arith.lit 1, Arith.lit 0, Arith.lit 1⟩)
    (P := { dahlquist2 with h := XRat.fin (1 / 10), stopTime := XRat.fin (N * (1 / 10)) }) .dahlquist Dahlquist.ode Dahlquist.reads
    (Verif.Events.still Whole.dahlquist rfl) rfl rfl (by decide) rfl (fun op h => by
      simp only [dahlquist2, List.mem_singleton] at h; subst h
      exact .getReal rfl rfl (by simp [Profile.declares, Profile.dahlquist]))
    (v := fun d => [.reals (some [d.x])])
    (fun {w w' vs d} _ h1 h2 => by
      rw [dahlquist_recorded h2]
      have h := congrArg (fun d : Dahlquist.Data XRat => ([.reals (some [d.x])] : List (Out _))) h1
      exact h)
    (.still _ (by decide) _) hN (stop_multiple (by decide +kernel) rfl) hf hn resource fun c l hc => by cases hc; exact ⟨trivial, rfl⟩
  obtain rfl := hk .dahlquist
  rw [e, rows_at (timeAfter_inj (h := 1 / 10) (by decide +kernel)) (v := fun k => [.reals (some [XRat.fin ((9 / 10) ^ k)])])
    (hc.eq fun hn => hn ⟨rfl, fun i hi => hi .dahlquist, fun k _ => finite_times k⟩) fun r hr => ?_]
  · simp only [timeAfter_fin]
  · obtain ⟨d, ⟨k, e1, e2⟩, e3⟩ := hv r hr
    refine ⟨k, e1, e3.trans ?_⟩
    have h1 := (Dahlquist.holds_steps k (d := ⟨Arith.lit 1, Arith.lit 0, Arith.lit 1⟩) ⟨XRat.lit_eq _, XRat.lit_eq _⟩).1
    rw [← h1]
    have h := congrArg (fun d : Dahlquist.Data XRat => ([.reals (some [d.x])] : List (Out _))) e2
    exact h

/-- **C78** for Model Exchange, VanDerPol, FMI 2.0, if the macros `NX` and `NZ` had the meant values: the program examples/simulate_fmi2_me.c ends without
error, and the row number `k` shows the oscillator after `k` explicit Euler steps. -/
theorem C78_partial_meant_vanDerPol {N : Nat} (hN : N + 1 < 2 ^ 64) {fuel n : Nat} (hf : 0 < fuel) (hn : N < n) (resource : Ptr UInt8) :
    Importer.Euler.simulate2 VanDerPol.model (.meant (VanDerPol.model (F := XRat))) { vanDerPol2 with h := XRat.fin (1 / 100), stopTime := XRat.fin (N * (1 / 100)) } fuel n resource =
      .ret (.OK, (List.range (N + 1)).map fun (k : Nat) => ⟨XRat.fin (k * (1 / 100)), [.reals (some [XRat.fin (Oscillator.next^[k] ⟨2, 0, 1⟩).x0, .fin (Oscillator.next^[k] ⟨2, 0, 1⟩).x1])]⟩) := by
  obtain ⟨rows, e, ⟨k, -, hc, hk⟩, hv⟩ := recordedME (d := ⟨Arith.lit 2, Arith.lit 0, Arith.lit 0, Arith.lit 0, Arith.lit 1⟩)
    (P := { vanDerPol2 with h := XRat.fin (1 / 100), stopTime := XRat.fin (N * (1 / 100)) }) .vanDerPol VanDerPol.ode VanDerPol.reads
    (Verif.Events.still Whole.vanDerPol rfl) rfl rfl (by decide) rfl (fun op h => by
      simp only [vanDerPol2, List.mem_singleton] at h; subst h
      exact .getReal rfl rfl (by simp [Profile.declares, Profile.vanDerPol]))
    (v := fun d => [.reals (some [d.x0, d.x1])])
    (fun {w w' vs d} _ h1 h2 => by
      rw [vanDerPol_recorded h2]
      have h := congrArg (fun d : VanDerPol.Data XRat => ([.reals (some [d.x0, d.x1])] : List (Out _))) h1
      exact h)
    (.still _ (by decide) _) hN (stop_multiple (by decide +kernel) rfl) hf hn resource fun c l hc => by cases hc; exact ⟨trivial, rfl⟩
  obtain rfl := hk .vanDerPol
  rw [e, rows_at (timeAfter_inj (h := 1 / 100) (by decide +kernel))
    (v := fun k => [.reals (some [XRat.fin (Oscillator.next^[k] ⟨2, 0, 1⟩).x0, .fin (Oscillator.next^[k] ⟨2, 0, 1⟩).x1])])
    (hc.eq fun hn => hn ⟨rfl, fun i hi => hi .vanDerPol, fun k _ => finite_times k⟩) fun r hr => ?_]
  · simp only [timeAfter_fin]
  · obtain ⟨d, ⟨k, e1, e2⟩, e3⟩ := hv r hr
    refine ⟨k, e1, e3.trans ?_⟩
    obtain ⟨h1, h2, -⟩ := VanDerPol.Holds.steps k (s := ⟨2, 0, 1⟩) (d := ⟨Arith.lit 2, Arith.lit 0, Arith.lit 0, Arith.lit 0, Arith.lit 1⟩) ⟨XRat.lit_eq _, XRat.lit_eq _, XRat.lit_eq _⟩
    rw [← h1, ← h2]
    have h := congrArg (fun d : VanDerPol.Data XRat => ([.reals (some [d.x0, d.x1])] : List (Out _))) e2
    exact h

/-- **C78** for Model Exchange, BouncingBall, FMI 2.0, if the macros `NX` and `NZ` had the meant values: the program examples/simulate_fmi2_me.c ends
without error, and there are rows for the times `0, h, 2 h, …`, a second one only if there is an event. A row shows the ball after the steps up
to its time, or the ball at this time before it bounces. -/
theorem C78_partial_meant_bouncingBall {N : Nat} (hN : N + 1 < 2 ^ 64) {fuel n : Nat} (hf : 0 < fuel) (hn : N < n) (resource : Ptr UInt8) :
    ∃ rows, Importer.Euler.simulate2 BouncingBall.model (.meant (BouncingBall.model (F := XRat)))
        { bouncingBall2 with h := XRat.fin (1 / 1000), stopTime := XRat.fin (N * (1 / 1000)) } fuel n resource = .ret (.OK, rows) ∧
      Covers True (fun k : Nat => XRat.fin (k * (1 / 1000))) (N + 1) (rows.map Row.time) ∧
      ∀ row ∈ rows, ∃ (k : Nat) (b : Ball), row = ⟨XRat.fin (k * (1 / 1000)), [.reals (some [XRat.fin b.h, .fin b.v])]⟩ ∧
        (b = Ball.next^[k] ⟨1, 0, -981 / 100, 7 / 10⟩ ∨ ∃ j, k = j + 1 ∧ b = (Ball.next^[j] ⟨1, 0, -981 / 100, 7 / 10⟩).fall) := by
  obtain ⟨rows, e, ⟨k, -, hc, hk⟩, hv⟩ := recordedME (d := .of ⟨1, 0, -981 / 100, 7 / 10⟩)
    (P := { bouncingBall2 with h := XRat.fin (1 / 1000), stopTime := XRat.fin (N * (1 / 1000)) }) .bouncingBall BouncingBall.ode BouncingBall.reads
    BouncingBall.events rfl rfl (by decide) rfl (fun op h => by
      simp only [bouncingBall2, List.mem_singleton] at h; subst h
      exact .getReal rfl rfl (by simp [Profile.declares, Profile.bouncingBall]))
    (v := fun d => [.reals (some [d.h, d.v])])
    (fun {w w' vs d} _ h1 h2 => by
      rw [bouncingBall_recorded h2]
      have h := congrArg (fun d : BouncingBall.Data XRat => ([.reals (some [d.h, d.v])] : List (Out _))) h1
      exact h)
    (.ball thrown) hN (stop_multiple (by decide +kernel) rfl) hf hn resource fun c l hc => by cases hc; exact ⟨trivial, by with_unfolding_all rfl⟩
  obtain rfl := hk .bouncingBall
  refine ⟨rows, e, ?_, fun row hr => ?_⟩
  · have := hc.weaken (events' := True) fun _ => trivial
    rwa [show timeAfter (XRat.fin (1 / 1000)) = fun k : Nat => XRat.fin (k * (1 / 1000)) from funext (timeAfter_fin _)] at this
  · obtain ⟨t, vs⟩ := row
    obtain ⟨d, ⟨k, ⟨h1, h2⟩ | ⟨h1, h2⟩⟩, h3⟩ := hv _ hr
    · cases h1; cases h3; cases h2
      exact ⟨k, _, rfl, .inl rfl⟩
    · cases h1; cases h3; cases h2
      exact ⟨k + 1, _, rfl, .inr ⟨k, rfl, rfl⟩⟩

/-- So with `NX` and `NZ` as meant the programs for Co-Simulation and for Model Exchange would write the same rows for Dahlquist. -/
theorem C78_partial_same_dahlquist {N : Nat} (hN : N < 99999) {fuel n : Nat} (hf : 2 * N + 10 < fuel) (hb : fuel * (N + 1) < 2 ^ 64) (hn : N < n)
    (resource : Ptr UInt8) {P : Program XRat (Op XRat)} (hP : P = { dahlquist2 with h := XRat.fin (1 / 10), stopTime := XRat.fin (N * (1 / 10)) }) :
    Importer.Euler.simulate2 Dahlquist.model (.meant (Dahlquist.model (F := XRat))) P fuel n resource = simulate2 Dahlquist.model P fuel n resource := by
  subst hP
  have h := C78_partial_dahlquist (j := 1) (N := N) (by decide) (by omega) (by omega) hb hn resource
  simp only [Nat.cast_one, one_mul, mul_one] at h
  rw [h, C78_partial_meant_dahlquist (by omega) (by omega) hn]

/-- And for VanDerPol. -/
theorem C78_partial_same_vanDerPol {N : Nat} (hN : N < 99999) {fuel n : Nat} (hf : 2 * N + 100 < fuel) (hb : fuel * (N + 1) < 2 ^ 64) (hn : N < n)
    (resource : Ptr UInt8) {P : Program XRat (Op XRat)} (hP : P = { vanDerPol2 with h := XRat.fin (1 / 100), stopTime := XRat.fin (N * (1 / 100)) }) :
    Importer.Euler.simulate2 VanDerPol.model (.meant (VanDerPol.model (F := XRat))) P fuel n resource = simulate2 VanDerPol.model P fuel n resource := by
  subst hP
  have h := C78_partial_vanDerPol (j := 1) (N := N) (by decide) (by omega) (by omega) hb hn resource
  simp only [Nat.cast_one, one_mul, mul_one] at h
  rw [h, C78_partial_meant_vanDerPol (by omega) (by omega) hn]

/-! The numbers of the example programs. -/

example (resource : Ptr UInt8) := C78_partial_meant_dahlquist (N := 100) (fuel := 1) (n := 101) (by decide) (by decide) (by decide) resource

example (resource : Ptr UInt8) := C78_partial_meant_vanDerPol (N := 2000) (fuel := 1) (n := 2001) (by decide) (by decide) (by decide) resource

example (resource : Ptr UInt8) := C78_partial_meant_bouncingBall (N := 3000) (fuel := 1) (n := 3001) (by decide) (by decide) (by decide) resource

example (resource : Ptr UInt8) := C78_partial_same_dahlquist (N := 100) (fuel := 211) (n := 101) (by decide) (by decide) (by decide) (by decide) resource rfl

example (resource : Ptr UInt8) := C78_partial_same_vanDerPol (N := 2000) (fuel := 4101) (n := 2001) (by decide) (by decide) (by decide) (by decide) resource rfl

end FMI2

namespace FMI3

/-- **C78** for Model Exchange, Dahlquist, FMI 3.0, if the macros `NX` and `NZ` had the meant values: the program examples/simulate_fmi3_me.c ends without
error, and the row number `k` shows `(9/10)^k`, the result of `k` explicit Euler steps. -/
theorem C78_partial_meant_dahlquist {N : Nat} (hN : N + 1 < 2 ^ 64) {fuel n : Nat} (hf : 0 < fuel) (hn : N < n) (resource : Ptr UInt8) :
    Importer.Euler.simulate3 Dahlquist.model (.meant (Dahlquist.model (F := XRat))) { dahlquist3 with h := XRat.fin (1 / 10), stopTime := XRat.fin (N * (1 / 10)) } fuel n resource =
      .ret (.OK, (List.range (N + 1)).map fun (k : Nat) => ⟨XRat.fin (k * (1 / 10)), [.values .float64 (some [XRat.fin ((9 / 10) ^ k)])]⟩) := by
  obtain ⟨rows, e, ⟨k, -, hc, hk⟩, hv⟩ := recordedME (d := ⟨Arith.lit 1, Arith.lit 0, Arith.lit 1⟩)
    (P := { dahlquist3 with h := XRat.fin (1 / 10), stopTime := XRat.fin (N * (1 / 10)) }) .dahlquist Dahlquist.ode Dahlquist.reads
    (Verif.Events.still Whole.dahlquist rfl) rfl rfl (by decide) rfl rfl (fun op h => by
      simp only [dahlquist3, List.mem_singleton] at h; subst h
      exact .get rfl rfl (by simp [Profile.declares, Profile.dahlquist]))
    (v := fun d => [.values .float64 (some [d.x])])
    (fun {w w' vs d} _ h1 h2 => by
      rw [dahlquist_recorded h2]
      have h := congrArg (fun d : Dahlquist.Data XRat => ([.values .float64 (some [d.x])] : List (Out _))) h1
      exact h)
    (.still _ (by decide) _) hN (stop_multiple (by decide +kernel) rfl) hf hn resource fun c l hc => by cases hc; exact ⟨trivial, rfl⟩
  obtain rfl := hk .dahlquist
  rw [e, rows_at (timeAfter_inj (h := 1 / 10) (by decide +kernel)) (v := fun k => [.values .float64 (some [XRat.fin ((9 / 10) ^ k)])])
    (hc.eq fun hn => hn ⟨rfl, fun i hi => hi .dahlquist, fun k _ => finite_times k⟩) fun r hr => ?_]
  · simp only [timeAfter_fin]
  · obtain ⟨d, ⟨k, e1, e2⟩, e3⟩ := hv r hr
    refine ⟨k, e1, e3.trans ?_⟩
    have h1 := (Dahlquist.holds_steps k (d := ⟨Arith.lit 1, Arith.lit 0, Arith.lit 1⟩) ⟨XRat.lit_eq _, XRat.lit_eq _⟩).1
    rw [← h1]
    have h := congrArg (fun d : Dahlquist.Data XRat => ([.values .float64 (some [d.x])] : List (Out _))) e2
    exact h

/-- **C78** for Model Exchange, VanDerPol, FMI 3.0, if the macros `NX` and `NZ` had the meant values: the program examples/simulate_fmi3_me.c ends without
error, and the row number `k` shows the oscillator after `k` explicit Euler steps. -/
theorem C78_partial_meant_vanDerPol {N : Nat} (hN : N + 1 < 2 ^ 64) {fuel n : Nat} (hf : 0 < fuel) (hn : N < n) (resource : Ptr UInt8) :
    Importer.Euler.simulate3 VanDerPol.model (.meant (VanDerPol.model (F := XRat))) { vanDerPol3 with h := XRat.fin (1 / 100), stopTime := XRat.fin (N * (1 / 100)) } fuel n resource =
      .ret (.OK, (List.range (N + 1)).map fun (k : Nat) => ⟨XRat.fin (k * (1 / 100)), [.values .float64 (some [XRat.fin (Oscillator.next^[k] ⟨2, 0, 1⟩).x0, .fin (Oscillator.next^[k] ⟨2, 0, 1⟩).x1])]⟩) := by
  obtain ⟨rows, e, ⟨k, -, hc, hk⟩, hv⟩ := recordedME (d := ⟨Arith.lit 2, Arith.lit 0, Arith.lit 0, Arith.lit 0, Arith.lit 1⟩)
    (P := { vanDerPol3 with h := XRat.fin (1 / 100), stopTime := XRat.fin (N * (1 / 100)) }) .vanDerPol VanDerPol.ode VanDerPol.reads
    (Verif.Events.still Whole.vanDerPol rfl) rfl rfl (by decide) rfl rfl (fun op h => by
      simp only [vanDerPol3, List.mem_singleton] at h; subst h
      exact .get rfl rfl (by simp [Profile.declares, Profile.vanDerPol]))
    (v := fun d => [.values .float64 (some [d.x0, d.x1])])
    (fun {w w' vs d} _ h1 h2 => by
      rw [vanDerPol_recorded h2]
      have h := congrArg (fun d : VanDerPol.Data XRat => ([.values .float64 (some [d.x0, d.x1])] : List (Out _))) h1
      exact h)
    (.still _ (by decide) _) hN (stop_multiple (by decide +kernel) rfl) hf hn resource fun c l hc => by cases hc; exact ⟨trivial, rfl⟩
  obtain rfl := hk .vanDerPol
  rw [e, rows_at (timeAfter_inj (h := 1 / 100) (by decide +kernel))
    (v := fun k => [.values .float64 (some [XRat.fin (Oscillator.next^[k] ⟨2, 0, 1⟩).x0, .fin (Oscillator.next^[k] ⟨2, 0, 1⟩).x1])])
    (hc.eq fun hn => hn ⟨rfl, fun i hi => hi .vanDerPol, fun k _ => finite_times k⟩) fun r hr => ?_]
  · simp only [timeAfter_fin]
  · obtain ⟨d, ⟨k, e1, e2⟩, e3⟩ := hv r hr
    refine ⟨k, e1, e3.trans ?_⟩
    obtain ⟨h1, h2, -⟩ := VanDerPol.Holds.steps k (s := ⟨2, 0, 1⟩) (d := ⟨Arith.lit 2, Arith.lit 0, Arith.lit 0, Arith.lit 0, Arith.lit 1⟩) ⟨XRat.lit_eq _, XRat.lit_eq _, XRat.lit_eq _⟩
    rw [← h1, ← h2]
    have h := congrArg (fun d : VanDerPol.Data XRat => ([.values .float64 (some [d.x0, d.x1])] : List (Out _))) e2
    exact h

/-- **C78** for Model Exchange, BouncingBall, FMI 3.0, if the macros `NX` and `NZ` had the meant values: the program examples/simulate_fmi3_me.c ends
without error, and there are rows for the times `0, h, 2 h, …`, a second one only if there is an event. A row shows the ball after the steps up
to its time, or the ball at this time before it bounces. -/
theorem C78_partial_meant_bouncingBall {N : Nat} (hN : N + 1 < 2 ^ 64) {fuel n : Nat} (hf : 0 < fuel) (hn : N < n) (resource : Ptr UInt8) :
    ∃ rows, Importer.Euler.simulate3 BouncingBall.model (.meant (BouncingBall.model (F := XRat)))
        { bouncingBall3 with h := XRat.fin (1 / 1000), stopTime := XRat.fin (N * (1 / 1000)) } fuel n resource = .ret (.OK, rows) ∧
      Covers True (fun k : Nat => XRat.fin (k * (1 / 1000))) (N + 1) (rows.map Row.time) ∧
      ∀ row ∈ rows, ∃ (k : Nat) (b : Ball), row = ⟨XRat.fin (k * (1 / 1000)), [.values .float64 (some [XRat.fin b.h, .fin b.v])]⟩ ∧
        (b = Ball.next^[k] ⟨1, 0, -981 / 100, 7 / 10⟩ ∨ ∃ j, k = j + 1 ∧ b = (Ball.next^[j] ⟨1, 0, -981 / 100, 7 / 10⟩).fall) := by
  obtain ⟨rows, e, ⟨k, -, hc, hk⟩, hv⟩ := recordedME (d := .of ⟨1, 0, -981 / 100, 7 / 10⟩)
    (P := { bouncingBall3 with h := XRat.fin (1 / 1000), stopTime := XRat.fin (N * (1 / 1000)) }) .bouncingBall BouncingBall.ode BouncingBall.reads
    BouncingBall.events rfl rfl (by decide) rfl rfl (fun op h => by
      simp only [bouncingBall3, List.mem_singleton] at h; subst h
      exact .get rfl rfl (by simp [Profile.declares, Profile.bouncingBall]))
    (v := fun d => [.values .float64 (some [d.h, d.v])])
    (fun {w w' vs d} _ h1 h2 => by
      rw [bouncingBall_recorded h2]
      have h := congrArg (fun d : BouncingBall.Data XRat => ([.values .float64 (some [d.h, d.v])] : List (Out _))) h1
      exact h)
    (.ball thrown) hN (stop_multiple (by decide +kernel) rfl) hf hn resource fun c l hc => by cases hc; exact ⟨trivial, by with_unfolding_all rfl⟩
  obtain rfl := hk .bouncingBall
  refine ⟨rows, e, ?_, fun row hr => ?_⟩
  · have := hc.weaken (events' := True) fun _ => trivial
    rwa [show timeAfter (XRat.fin (1 / 1000)) = fun k : Nat => XRat.fin (k * (1 / 1000)) from funext (timeAfter_fin _)] at this
  · obtain ⟨t, vs⟩ := row
    obtain ⟨d, ⟨k, ⟨h1, h2⟩ | ⟨h1, h2⟩⟩, h3⟩ := hv _ hr
    · cases h1; cases h3; cases h2
      exact ⟨k, _, rfl, .inl rfl⟩
    · cases h1; cases h3; cases h2
      exact ⟨k + 1, _, rfl, .inr ⟨k, rfl, rfl⟩⟩

/-- So with `NX` and `NZ` as meant the programs for Co-Simulation and for Model Exchange would write the same rows for Dahlquist. -/
theorem C78_partial_same_dahlquist {N : Nat} (hN : N < 99999) {fuel n : Nat} (hf : 2 * N + 10 < fuel) (hb : fuel * (N + 1) < 2 ^ 64) (hn : N < n)
    (resource : Ptr UInt8) {P : Program XRat (Op XRat)} (hP : P = { dahlquist3 with h := XRat.fin (1 / 10), stopTime := XRat.fin (N * (1 / 10)) }) :
    Importer.Euler.simulate3 Dahlquist.model (.meant (Dahlquist.model (F := XRat))) P fuel n resource = simulate3 Dahlquist.model P fuel n resource := by
  subst hP
  have h := C78_partial_dahlquist (j := 1) (N := N) (by decide) (by omega) (by omega) hb hn resource
  simp only [Nat.cast_one, one_mul, mul_one] at h
  rw [h, C78_partial_meant_dahlquist (by omega) (by omega) hn]

/-- And for VanDerPol. -/
theorem C78_partial_same_vanDerPol {N : Nat} (hN : N < 99999) {fuel n : Nat} (hf : 2 * N + 100 < fuel) (hb : fuel * (N + 1) < 2 ^ 64) (hn : N < n)
    (resource : Ptr UInt8) {P : Program XRat (Op XRat)} (hP : P = { vanDerPol3 with h := XRat.fin (1 / 100), stopTime := XRat.fin (N * (1 / 100)) }) :
    Importer.Euler.simulate3 VanDerPol.model (.meant (VanDerPol.model (F := XRat))) P fuel n resource = simulate3 VanDerPol.model P fuel n resource := by
  subst hP
  have h := C78_partial_vanDerPol (j := 1) (N := N) (by decide) (by omega) (by omega) hb hn resource
  simp only [Nat.cast_one, one_mul, mul_one] at h
  rw [h, C78_partial_meant_vanDerPol (by omega) (by omega) hn]

/-! The numbers of the example programs. -/

example (resource : Ptr UInt8) := C78_partial_meant_dahlquist (N := 100) (fuel := 1) (n := 101) (by decide) (by decide) (by decide) resource

example (resource : Ptr UInt8) := C78_partial_meant_vanDerPol (N := 2000) (fuel := 1) (n := 2001) (by decide) (by decide) (by decide) resource

example (resource : Ptr UInt8) := C78_partial_meant_bouncingBall (N := 3000) (fuel := 1) (n := 3001) (by decide) (by decide) (by decide) resource

example (resource : Ptr UInt8) := C78_partial_same_dahlquist (N := 100) (fuel := 211) (n := 101) (by decide) (by decide) (by decide) (by decide) resource rfl

example (resource : Ptr UInt8) := C78_partial_same_vanDerPol (N := 2000) (fuel := 4101) (n := 2001) (by decide) (by decide) (by decide) (by decide) resource rfl

end FMI3

end Verif
