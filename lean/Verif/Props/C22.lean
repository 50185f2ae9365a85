import Verif.Lemmas.StopTime
import Verif.Props.C20
import Verif.Lemmas.ExReach

/-!
# C22: the stop time is never exceeded
-/

set_option linter.unusedSectionVars false

namespace Verif

/-- `t` does not exceed the stop time `st` by more than the tolerance. -/
def NotPast (t st : Rat) : Prop := t ≤ st ∨ Close t st

/-- The tolerance of the comparison with an end point on top of that of the end point. -/
theorem notPast_or {t q st : Rat} (h1 : Ahead t q) (h2 : Ahead q st) :
    NotPast t st ∨ (st < q ∧ Close q st ∧ q < t ∧ Close t q) := by
  rcases le_or_gt t st with h | h
  · exact .inl (.inl h)
  rcases h2 with h2 | h2
  · rcases h1 with h1 | h1
    · exact .inl (.inl (h1.trans h2))
    · exact .inl (.inr (h1.symm.between' h2 h.le).symm)
  · rcases le_or_gt t q with h3 | h3
    · exact .inl (.inr (h2.symm.between h.le h3).symm)
    · rcases le_or_gt q st with h4 | h4
      · rcases h1 with h1 | h1
        · linarith
        · exact .inl (.inr (h1.symm.between' h4 h.le).symm)
      · exact .inr ⟨h4, h2, h3, h1.resolve_left (not_le.2 h3)⟩

namespace FMI2
variable {D : Type} {m : Model XRat D}

/-- **C22** (FMI 2.0), partial: let a Co-Simulation session have the start time `start` and a defined stop time
`st ≥ start`. After any calls, whatever they returned, in which the arguments of `DoStep` were finite, the FMU's time
does not exceed `st` by more than the tolerance, or it exceeds by at most the tolerance a point `q` that exceeds `st` by
at most the tolerance. If no step was requested to end behind `st`, the latter cannot happen. The step counter (64 bits)
is assumed not to wrap around. What is missing: the tolerance is granted twice (`C22_violated_twice`), and with an
infinite step size the stop time has no effect (`C22_violated_inf`). -/
theorem C22_fmi2_partial (hm : RefFMU2 m) {start st : Rat} (hle : start ≤ st) {w w₀ w₁ : World XRat D}
    (hr : Reachable m .coSimulation w) {f₀ o₀}
    (e₀ : step m f₀ w (.setupExperiment (.fin start) true (.fin st)) = .ret (w₀, .OK, o₀))
    {fuel : Nat} {ops : List (Op XRat)} {outs} (hops : ∀ op ∈ ops, ¬ EndsSession op)
    (hfin : ∀ ccp hc, .doStep ccp hc ∈ ops → ∃ a d, ccp = .fin a ∧ hc = .fin d)
    (e₁ : run m fuel w₀ ops = .ret (w₁, outs)) (hb : fuel * ops.length < 2 ^ 64) :
    ∃ t, ReadsTime m w₁ (.fin t) ∧
      (NotPast t st ∨ ∃ q, st < q ∧ Close q st ∧ q < t ∧ Close t q) ∧
      ((∀ a d, .doStep (.fin a) (.fin d) ∈ ops → a + d ≤ st) → NotPast t st) := by
  have hok := hm.eff.okOrError
  obtain ⟨h, hh⟩ : ∃ h, m.h = .fin h := by cases hm <;> exact ⟨_, rfl⟩
  obtain ⟨hw, hn0, ht0, hs0, hcl⟩ := setup_start hok hr e₀
  have hT0 : Ticks h start start w₀.inst := ⟨hs0, ht0, by rw [hn0]; simp⟩
  have hst : w₀.inst.stopTime = .fin st := congrArg Clock.stop hcl
  obtain ⟨t, hT, h1⟩ := run_within hok hh ops hw hops hfin e₁ hT0 hst (by omega)
  refine ⟨t, hT.time ▸ reads_time hok hm.timeVar _, ?_, fun hall => ?_⟩
  · rcases h1 with rfl | ⟨a, d, -, h1, h2⟩
    · exact .inl (.inl hle)
    · exact (notPast_or h1 h2).imp id fun h => ⟨_, h⟩
  · rcases h1 with rfl | ⟨a, d, hmem, h1, h2⟩
    · exact .inl hle
    · rcases notPast_or h1 h2 with h | h
      · exact h
      · have := hall a d hmem
        linarith [h.1]

/-- Non-vacuity: Dahlquist with the stop time 1, stepped to 0.5, to 1 and, within the tolerance, a bit further; a step
behind the stop time is refused. -/
example : (Ex.run2 Dahlquist.model .coSimulation [.setupExperiment (.fin 0) true (.fin 1),
    .enterInitializationMode, .exitInitializationMode, .doStep (.fin 0) (.fin (1 / 2)),
    .doStep (.fin (1 / 2)) (.fin (1 / 2)), .doStep (.fin 1) (.fin (1 / 200000)), .doStep (.fin 1) (.fin (1 / 10))]).is
    (fun x => decide (x.2.map (·.1) = [.OK, .OK, .OK, .OK, .OK, .OK, .Error]) &&
      decide (x.1.inst.ctx.time = .fin 1)) = true := by
  decide +kernel

/-- **C22** fails for an infinite step size: Stair with the stop time 5 is stepped from 0 over infinity. The call ends
the simulation with `fmi2Discard`, and the FMU's time is 9. -/
theorem C22_violated_inf : ∃ (w w₀ w₁ : World XRat Stair.Data),
    Reachable Stair.model .coSimulation w ∧
    step Stair.model 0 w (.setupExperiment (.fin 0) true (.fin 5)) = .ret (w₀, .OK, .unit) ∧
    run Stair.model 100 w₀ [.enterInitializationMode, .exitInitializationMode, .doStep (.fin 0) .pinf] =
      .ret (w₁, [(.OK, .unit), (.OK, .unit), (.Discard, .unit)]) ∧
    ReadsTime Stair.model w₁ (.fin 9) ∧ ¬ NotPast 9 5 := by
  obtain ⟨c, hc, hp⟩ := exists_of_any (o := Ex.new2 Stair.model .coSimulation)
    (p := fun c => (step Stair.model 0 (.fresh c) (.setupExperiment (.fin 0) true (.fin 5))).is
      fun x => decide (x.2 = (.OK, .unit)) && (run Stair.model 100 x.1 [.enterInitializationMode,
          .exitInitializationMode, .doStep (.fin 0) .pinf]).is
        fun y => decide (y.2 = [(.OK, .unit), (.OK, .unit), (.Discard, .unit)]) &&
          decide (y.1.inst.ctx.time = .fin 9))
    (by decide +kernel)
  obtain ⟨⟨w, s, o⟩, e1, hp⟩ := Outcome.exists_of_is hp
  simp only [Bool.and_eq_true, decide_eq_true_eq, Prod.mk.injEq] at hp
  obtain ⟨⟨rfl, rfl⟩, hp⟩ := hp
  obtain ⟨⟨w', outs⟩, e2, hp⟩ := Outcome.exists_of_is hp
  simp only [Bool.and_eq_true, decide_eq_true_eq] at hp
  obtain ⟨rfl, hp⟩ := hp
  refine ⟨.fresh c, w, w', Ex.reachable2 hc, e1, e2, ?_, ?_⟩
  · rw [← hp]
    exact reads_time RefFMU2.stair.eff.okOrError RefFMU2.stair.timeVar _
  · unfold NotPast Close tol; decide +kernel

end FMI2

namespace FMI3
variable {D : Type} {m : Model XRat D}

/-- **C22** (FMI 3.0), partial: as for FMI 2.0. `fmi3SetTime`, which the Reference FMUs accept in Event Mode also in
Co-Simulation, is excluded. -/
theorem C22_fmi3_partial (hm : RefFMU3 m) {start st : Rat} (hle : start ≤ st) {w w₀ w₁ : World XRat D}
    (hr : Reachable m .coSimulation w) {f₀ o₀}
    (e₀ : step m f₀ w (.enterInitializationMode (.fin start) true (.fin st)) = .ret (w₀, .OK, o₀))
    {fuel : Nat} {ops : List (Op XRat)} {outs} (hops : ∀ op ∈ ops, ¬ EndsSession op ∧ op.fn ≠ .setTime)
    (hfin : ∀ ccp hc out, .doStep ccp hc out ∈ ops → ∃ a d, ccp = .fin a ∧ hc = .fin d)
    (e₁ : run m fuel w₀ ops = .ret (w₁, outs)) (hb : fuel * ops.length < 2 ^ 64) :
    ∃ t, ReadsTime m w₁ (.fin t) ∧
      (NotPast t st ∨ ∃ q, st < q ∧ Close q st ∧ q < t ∧ Close t q) ∧
      ((∀ a d out, .doStep (.fin a) (.fin d) out ∈ ops → a + d ≤ st) → NotPast t st) := by
  have hok := hm.eff.okOrError
  obtain ⟨h, hh⟩ : ∃ h, m.h = .fin h := by cases hm <;> exact ⟨_, rfl⟩
  obtain ⟨hn0, ht0, hs0, hcl⟩ := init_start hok hr e₀
  have hT0 : Ticks h start start w₀.inst := ⟨hs0, ht0, by rw [hn0]; simp⟩
  have hst : w₀.inst.stopTime = .fin st := congrArg Clock.stop hcl
  obtain ⟨t, hT, h1⟩ := run_within hok hh ops hops hfin e₁ hT0 hst (by omega)
  refine ⟨t, hT.time ▸ reads_time hok hm.timeVar _, ?_, fun hall => ?_⟩
  · rcases h1 with rfl | ⟨a, d, -, -, h1, h2⟩
    · exact .inl (.inl hle)
    · exact (notPast_or h1 h2).imp id fun h => ⟨_, h⟩
  · rcases h1 with rfl | ⟨a, d, out, hmem, h1, h2⟩
    · exact .inl hle
    · rcases notPast_or h1 h2 with h | h
      · exact h
      · have := hall a d out hmem
        linarith [h.1]

/-- Non-vacuity: Stair with the stop time 5, stepped to 4.9 (time 4.8); a step behind the stop time is refused. -/
example : (Ex.runCS3 Stair.model false false [.enterInitializationMode (.fin 0) true (.fin 5),
    .exitInitializationMode, .doStep (.fin 0) (.fin (49 / 10)) Ex.stepOut,
    .doStep (.fin (49 / 10)) (.fin (2 / 10)) Ex.stepOut]).is
    (fun x => decide (x.2.map (·.1) = [.OK, .OK, .OK, .Error]) &&
      decide (x.1.inst.ctx.time = .fin (48 / 10))) = true := by
  decide +kernel

/-- **C22** fails by twice the tolerance: Roberts with the stop time 1e-5 is stepped from 0 to 2e-5, which counts as
close to the stop time, and ends at 3e-5, which counts as close to 2e-5. -/
theorem C22_violated_twice : ∃ (w w₀ w₁ : World XRat (Roberts.Data XRat)) (outs : List (Status × Out XRat)),
    Reachable Roberts.model .coSimulation w ∧
    step Roberts.model 0 w (.enterInitializationMode (.fin 0) true (.fin (1 / 100000))) = .ret (w₀, .OK, .unit) ∧
    run Roberts.model 100 w₀ [.set .float64 (some [2]) 1 (some [.fin 0]) 1,
      .set .float64 (some [4]) 1 (some [.fin 0]) 1, .exitInitializationMode,
      .doStep (.fin 0) (.fin (2 / 100000)) Ex.stepOut] = .ret (w₁, outs) ∧ (∀ x ∈ outs, x.1 = .OK) ∧
    ReadsTime Roberts.model w₁ (.fin (3 / 100000)) ∧ ¬ NotPast (3 / 100000) (1 / 100000) := by
  obtain ⟨c, hc, hp⟩ := exists_of_any (o := Ex.newCS3 Roberts.model false false)
    (p := fun c => (step Roberts.model 0 (.fresh c)
        (.enterInitializationMode (.fin 0) true (.fin (1 / 100000)))).is
      fun x => decide (x.2 = (.OK, .unit)) && (run Roberts.model 100 x.1
        [.set .float64 (some [2]) 1 (some [.fin 0]) 1,
         .set .float64 (some [4]) 1 (some [.fin 0]) 1, .exitInitializationMode,
         .doStep (.fin 0) (.fin (2 / 100000)) Ex.stepOut]).is
        fun y => y.2.all (fun z => decide (z.1 = .OK)) && decide (y.1.inst.ctx.time = .fin (3 / 100000)))
    (by decide +kernel)
  obtain ⟨⟨w, s, o⟩, e1, hp⟩ := Outcome.exists_of_is hp
  simp only [Bool.and_eq_true, decide_eq_true_eq, Prod.mk.injEq] at hp
  obtain ⟨⟨rfl, rfl⟩, hp⟩ := hp
  obtain ⟨⟨w', outs⟩, e2, hp⟩ := Outcome.exists_of_is hp
  simp only [Bool.and_eq_true, decide_eq_true_eq, List.all_eq_true] at hp
  have hr : Reachable Roberts.model .coSimulation (World.fresh c) :=
    ⟨c, .fresh c, 0, [], [], .cs (Prod.ext hc rfl), ⟨rfl, fun _ => rfl, fun _ _ e => by cases e⟩, rfl⟩
  refine ⟨.fresh c, w, w', outs, hr, e1, e2, hp.1, ?_, ?_⟩
  · rw [← hp.2]
    exact reads_time RefFMU3.roberts.eff.okOrError RefFMU3.roberts.timeVar _
  · unfold NotPast Close tol; decide +kernel

end FMI3
end Verif
