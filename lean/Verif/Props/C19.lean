import Verif.Lemmas.Grid
import Verif.Examples
import Mathlib.Tactic.Linarith
import Mathlib.Algebra.Order.Ring.Rat

/-!
# C19: the time of a Co-Simulation instance is a point of the solver grid
-/

set_option linter.unusedSectionVars false

namespace Verif

namespace FMI2
variable {F D : Type} [Arith F] [HasInf F] {m : Model F D}

/-- **C19** (FMI 2.0): after any calls of a session, whatever they returned, the time the FMU reports
is the start time of the session or `start + n * h` computed with one multiplication and one
addition, for the solver step `h` of the FMU and some number `n`. No property of the arithmetic is
used: rounding errors do not accumulate. -/
theorem C19_fmi2 (hm : RefFMU2 m) {start : F} {w w' : World F D} (hs : SessionStart m start w)
    {fuel : Nat} {ops : List (Op F)} {outs} (hops : ∀ op ∈ ops, ¬ EndsSession op)
    (e : run m fuel w ops = .ret (w', outs)) :
    ∃ t, ReadsTime m w' t ∧ OnGrid start m.h t := by
  have hk := hm.eff.okOrError
  obtain ⟨hw, h1, h2, h3⟩ := hs.times hk
  obtain ⟨-, n, -, a⟩ := run_advanced hk ops hw hops _ e
  refine ⟨_, reads_time hk hm.timeVar _, ?_⟩
  have := a.onGrid (h2.trans h3.symm)
  rwa [h3] at this

/-- Non-vacuity: VanDerPol started at 3, stepped over 0.25 and 0.1 (solver step 0.01), reports 3.35
after 35 solver steps. -/
example : (Ex.run2 VanDerPol.model .coSimulation [.setupExperiment (.fin 3) false (.fin 0),
    .enterInitializationMode, .exitInitializationMode, .doStep (.fin 3) (.fin (1 / 4)),
    .doStep (.fin (13 / 4)) (.fin (1 / 10)), .getReal (some [0]) 1 (some [.fin 7])]).is
    (fun x => Ex.allOK x.2 && decide (Ex.real2 x.2 5 = some (gridPoint (.fin 3) (.fin (1 / 100)) 35)))
    = true := by
  decide +kernel

end FMI2

namespace FMI3
variable {F D : Type} [Arith F] [HasInf F] {m : Model F D}

/-- **C19** (FMI 3.0), partial: the same for FMI 3.0, without `fmi3SetTime`. What is missing: the
Reference FMUs accept `fmi3SetTime` from a Co-Simulation instance in Event Mode, and then the claim
is false, see `C19_fmi3_violated`. -/
theorem C19_fmi3_partial (hm : RefFMU3 m) {start : F} {w w' : World F D}
    (hs : SessionStart m start w) {fuel : Nat} {ops : List (Op F)} {outs}
    (hops : ∀ op ∈ ops, ¬ EndsSession op ∧ op.fn ≠ .setTime)
    (e : run m fuel w ops = .ret (w', outs)) :
    ∃ t, ReadsTime m w' t ∧ OnGrid start m.h t := by
  have hk := hm.eff.okOrError
  obtain ⟨h1, h2, h3⟩ := hs.times hk
  obtain ⟨n, -, a⟩ := run_advanced hk ops hops _ e
  refine ⟨_, reads_time hk hm.timeVar _, ?_⟩
  have := a.onGrid (h2.trans h3.symm)
  rwa [h3] at this

/-- A point off the grid. -/
theorem not_onGrid {s h t : Rat} (hh : 0 ≤ h) (ht : t < s) :
    ¬ OnGrid (.fin s) (.fin h) (.fin t : XRat) := by
  have key : ∀ n : Nat, s ≤ s + n * h := fun n => by
    have : 0 ≤ (n : Rat) * h := mul_nonneg (Nat.cast_nonneg n) hh
    linarith
  rintro (h1 | ⟨n, -, h1⟩)
  · simp only [XRat.fin.injEq] at h1; linarith
  · simp only [gridPoint, XRat.lit_eq, XRat.mul_fin, XRat.add_fin, XRat.fin.injEq] at h1
    have := key n
    linarith

/-- The history behind `C19_fmi3_violated`: a Co-Simulation instance with Event Mode. -/
def setTimeOps : List (Op XRat) :=
  [.exitInitializationMode, .setTime (.fin (-5)), .enterStepMode, .get .float64 (some [0]) 1 (some [.fin 7]) 1]

/-- **C19** fails for `fmi3SetTime`: all calls succeed, and the Stair FMU in Co-Simulation started
at 0 reports the time -5, which is not on its grid. -/
theorem C19_fmi3_violated : ∃ (w w' : World XRat Stair.Data) (outs : List (Status × Out XRat)),
    SessionStart Stair.model (.fin 0) w ∧ (∀ op ∈ setTimeOps, ¬ EndsSession op) ∧
    run Stair.model 0 w setTimeOps = .ret (w', outs) ∧ (∀ x ∈ outs, x.1 = .OK) ∧
    ReadsTime Stair.model w' (.fin (-5)) ∧
    ¬ OnGrid (.fin 0) (Stair.model : Model XRat Stair.Data).h (.fin (-5)) := by
  obtain ⟨c, hc, hp⟩ := exists_of_any (o := Ex.newCS3 Stair.model true false)
    (p := fun c => (step Stair.model 0 (.fresh c) (.enterInitializationMode (.fin 0) false (.fin 0))).is
      fun x => decide (x.2 = (.OK, .unit)) && (run Stair.model 0 x.1 setTimeOps).is
        fun y => y.2.all (fun z => decide (z.1 = .OK)) && decide (y.1.inst.ctx.time = .fin (-5)))
    (by decide +kernel)
  obtain ⟨⟨w, s, o⟩, e1, hp⟩ := Outcome.exists_of_is hp
  simp only [Bool.and_eq_true, decide_eq_true_eq, Prod.mk.injEq] at hp
  obtain ⟨⟨rfl, rfl⟩, hp⟩ := hp
  obtain ⟨⟨w', outs⟩, e2, hp⟩ := Outcome.exists_of_is hp
  simp only [Bool.and_eq_true, decide_eq_true_eq, List.all_eq_true] at hp
  have hr : Reachable Stair.model .coSimulation (World.fresh c) :=
    ⟨c, .fresh c, 0, [], [], .cs (Prod.ext hc rfl), ⟨rfl, fun _ => rfl, fun _ _ e => by cases e⟩, rfl⟩
  refine ⟨w, w', outs, .init hr e1, ?_, e2, hp.1, ?_, not_onGrid (by decide +kernel) (by decide +kernel)⟩
  · simp [setTimeOps, EndsSession, Op.fn]
  · rw [← hp.2]
    exact reads_time RefFMU3.stair.eff.okOrError RefFMU3.stair.timeVar _

/-- Non-vacuity: Dahlquist started at 2 and stepped over 0.5 reports 2.5 after 5 solver steps. -/
example : (Ex.runCS3 Dahlquist.model false false [.enterInitializationMode (.fin 2) false (.fin 0),
    .exitInitializationMode, .doStep (.fin 2) (.fin (1 / 2)) Ex.stepOut,
    .get .float64 (some [0]) 1 (some [.fin 7]) 1]).is
    (fun x => Ex.allOK x.2 && decide (Ex.real3 x.2 3 = some (gridPoint (.fin 2) (.fin (1 / 10)) 5)))
    = true := by
  decide +kernel

end FMI3
end Verif
