import Verif.Spec.Ball
import Verif.Lemmas.DataInv
import Verif.Lemmas.Readable
import Mathlib.Tactic.Linarith
import Mathlib.Tactic.Ring
import Mathlib.Algebra.Order.Field.Rat

/-! # The data of the bouncing ball -/

set_option linter.unusedSectionVars false

namespace Verif

namespace BouncingBall
variable {F : Type} [Arith F]

theorem calc_ok : (BouncingBall.model (F := F)).Calc BouncingBall.ode.calc' := fun _ _ => rfl
theorem view_h : (BouncingBall.model (F := F)).View BouncingBall.ode.calc' .float64 1 fun _ d => d.h :=
  fun _ _ _ _ _ => rfl
theorem view_v : (BouncingBall.model (F := F)).View BouncingBall.ode.calc' .float64 3 fun _ d => d.v :=
  fun _ _ _ _ _ => rfl
theorem view_g : (BouncingBall.model (F := F)).View BouncingBall.ode.calc' .float64 5 fun _ d => d.g :=
  fun _ _ _ _ _ => rfl
theorem view_e : (BouncingBall.model (F := F)).View BouncingBall.ode.calc' .float64 6 fun _ d => d.e :=
  fun _ _ _ _ _ => rfl

/-- The data of a ball. -/
def Data.of (b : Ball) : Data XRat := ⟨.fin b.h, .fin b.v, .fin b.g, .fin b.e⟩

theorem bounce_event (a : Ball) : a.Event a.bounce := by
  unfold Ball.bounce
  constructor
  · split
    · split <;> rfl
    · rfl
  · intro h
    rw [if_pos h]
    split <;> exact div_pos one_pos (pow_pos two_pos _)
  · intro h h2
    rw [if_pos h, if_neg (not_lt.2 h2)]
    exact ⟨rfl, rfl⟩
  · intro h h2
    rw [if_pos h, if_pos h2]
    exact ⟨rfl, rfl⟩
  · intro h
    rw [if_neg h]

theorem eventUpdate_eq (ctx : Ctx XRat) (mv : MV XRat (Data XRat)) {a : Ball} (h : mv.data = .of a) :
    eventUpdate ctx mv = .ret ({ mv with
      data := .of a.bounce, valuesChanged := decide a.Hits, nominalsChanged := false, terminateSimulation := false,
      nextEventTimeDefined := false, isDirtyValues := true }, .OK, ()) := by
  obtain ⟨h0, v0, g0, e0⟩ := a
  unfold eventUpdate Ball.bounce
  by_cases hh : Ball.Hits ⟨h0, v0, g0, e0⟩
  · obtain ⟨h1, h2⟩ := id hh
    simp only at h1 h2
    have hm : -v0 * e0 = -(e0 * v0) := by ring
    by_cases hv : -(e0 * v0) < 1 / 10
    · have hv : -(e0 * v0) < 10⁻¹ := by simpa using hv
      simp [h, Data.of, hh, h1, h2, hv, hm, vMin, dblMin]
    · have hv : ¬ -(e0 * v0) < 10⁻¹ := by simpa using hv
      simp [h, Data.of, hh, h1, h2, hv, hm, vMin, dblMin]
  · have : ¬ (h0 ≤ 0 ∧ v0 < 0) := hh
    simp [h, Data.of, hh, this]

/-- The values of a ball at rest. -/
theorem rest_keeps {a : Ball} (hv : a.v = 0) (hg : a.g = 0) :
    (BouncingBall.ode (F := XRat)).Keeps fun d => d = .of a where
  «calc» _ := Iff.rfl
  euler d h := by
    subst h
    simp [Ode.euler, BouncingBall.ode, BouncingBall.model, eulerUpdate, Data.of, hv, hg]
  event he h e := by
    cases he
    rw [eventUpdate_eq _ _ h] at e
    cases e
    have : ¬ a.Hits := fun h => absurd h.2 (by simp [hv])
    simp [Ball.bounce, this]

end BouncingBall

open BouncingBall

theorem FMI3.Reads.readable {F D : Type} [Arith F] [HasInf F] {m : Model F D} {w : World F D} {vr : Nat} {v : F}
    (h : Reads m w .float64 vr v) : Readable w.inst := by
  refine Classical.byContradiction fun hs => ?_
  obtain ⟨w1, e1⟩ := h 0 (Arith.lit 0)
  obtain ⟨w2, e2, -⟩ := refused m 0 w (.get .float64 (some [vr]) 1 (some [Arith.lit 0]) 1) (by simp) hs
  rw [e2] at e1
  cases e1

theorem FMI2.ReadsBall.data {w : FMI2.World XRat (BouncingBall.Data XRat)} {b : Ball} (h : ReadsBall w b) :
    w.inst.mv.data = .of b := by
  have hre := h.h.readable
  have e1 := h.h.unique (view_real calc_ok (fun _ => rfl) view_h hre)
  have e2 := h.v.unique (view_real calc_ok (fun _ => rfl) view_v hre)
  have e3 := h.g.unique (view_real calc_ok (fun _ => rfl) view_g hre)
  have e4 := h.e.unique (view_real calc_ok (fun _ => rfl) view_e hre)
  unfold Data.of
  rw [e1, e2, e3, e4]; rfl

theorem FMI2.ReadsBall.of_data {w : FMI2.World XRat (BouncingBall.Data XRat)} {b : Ball} (h : w.inst.mv.data = .of b)
    (hre : Readable w.inst) : ReadsBall w b := by
  have e1 := view_real calc_ok (fun _ => rfl) view_h hre
  have e2 := view_real calc_ok (fun _ => rfl) view_v hre
  have e3 := view_real calc_ok (fun _ => rfl) view_g hre
  have e4 := view_real calc_ok (fun _ => rfl) view_e hre
  rw [h] at e1 e2 e3 e4
  exact ⟨e1, e2, e3, e4⟩

theorem FMI3.ReadsBall.data {w : FMI3.World XRat (BouncingBall.Data XRat)} {b : Ball} (h : ReadsBall w b) :
    w.inst.mv.data = .of b := by
  have hre := FMI3.Reads.readable h.h
  have e1 := h.h.unique (view calc_ok (fun _ => rfl) view_h hre)
  have e2 := h.v.unique (view calc_ok (fun _ => rfl) view_v hre)
  have e3 := h.g.unique (view calc_ok (fun _ => rfl) view_g hre)
  have e4 := h.e.unique (view calc_ok (fun _ => rfl) view_e hre)
  unfold Data.of
  rw [e1, e2, e3, e4]; rfl

theorem FMI3.ReadsBall.of_data {w : FMI3.World XRat (BouncingBall.Data XRat)} {b : Ball} (h : w.inst.mv.data = .of b)
    (hre : Readable w.inst) : ReadsBall w b := by
  have e1 := view calc_ok (fun _ => rfl) view_h hre
  have e2 := view calc_ok (fun _ => rfl) view_v hre
  have e3 := view calc_ok (fun _ => rfl) view_g hre
  have e4 := view calc_ok (fun _ => rfl) view_e hre
  rw [h] at e1 e2 e3 e4
  exact ⟨e1, e2, e3, e4⟩

end Verif
