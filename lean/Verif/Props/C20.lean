import Verif.Lemmas.Chain
import Verif.Examples

/-!
# C20: a successful `DoStep` reaches the requested communication point
-/

set_option linter.unusedSectionVars false

namespace Verif

namespace FMI2
variable {D : Type} {m : Model XRat D}

/-- What setting up the experiment leaves behind. -/
theorem setup_start (hm : OkOrError m) {w w₀ : World XRat D} {fuel start sd stop o}
    (hr : Reachable m .coSimulation w)
    (e : step m fuel w (.setupExperiment start sd stop) = .ret (w₀, .OK, o)) :
    WInv CSModes w₀ ∧ w₀.inst.nSteps = 0 ∧ w₀.inst.ctx.time = start ∧ w₀.inst.startTime = start ∧
      w₀.inst.clock = ⟨start, if sd then stop else .pinf⟩ := by
  obtain ⟨h1, h2, h3, h4⟩ := SessionStart.times hm (.setup hr e)
  refine ⟨h1, h2, h3, h4, ?_⟩
  have := step_times hm (by simp [Op.fn]) _ e
  rw [clock_of_times this]
  rfl

/-- **C20** (FMI 2.0), partial: let a Co-Simulation session start at `start`, let every step begin exactly where the
previous one ended, and let `DoStep(ccp, hc)` be such a step that returns `fmi2OK`. Then `ccp + hc` is a number `q`,
the FMU's time `t` lags `q` by less than a solver step `h` and is not ahead of `q` by more than the tolerance, and
every step that does not begin at `q`, up to the tolerance, is refused. The step counter (64 bits) is assumed not to wrap
around. What is missing: a step may also begin within the tolerance of the expected point; then `t` can be further ahead
of `q`, see `C20_violated`. -/
theorem C20_fmi2_partial (hm : RefFMU2 m) {h start : Rat} (hh : m.h = .fin h) {w w₀ w₁ w₂ : World XRat D}
    (hr : Reachable m .coSimulation w) {f₀ sd stop o₀}
    (e₀ : step m f₀ w (.setupExperiment (.fin start) sd stop) = .ret (w₀, .OK, o₀))
    {fuel : Nat} {ops : List (Op XRat)} {outs} (hops : ∀ op ∈ ops, ¬ EndsSession op)
    (e₁ : run m fuel w₀ ops = .ret (w₁, outs))
    (hc : (⟨.fin start, if sd then stop else .pinf⟩ : Clock XRat).Chained2 ops outs)
    {ccp hs : XRat} {o} (hccp : ccp = ((⟨.fin start, if sd then stop else .pinf⟩ : Clock XRat).run2 ops outs).expected)
    (e₂ : step m fuel w₁ (.doStep ccp hs) = .ret (w₂, .OK, o))
    (hb : fuel * (ops.length + 1) < 2 ^ 64) :
    ∃ q t, ccp +. hs = .fin q ∧ ReadsTime m w₂ (.fin t) ∧ Near h q t ∧
      ∀ fuel ccp' hs', ¬ Close ccp' q → ∃ w', step m fuel w₂ (.doStep (.fin ccp') hs') = .ret (w', .Error, .unit) := by
  have hok := hm.eff.okOrError
  obtain ⟨hw, hn0, ht0, hs0, hcl⟩ := setup_start hok hr e₀
  have hT0 : Ticks h start start w₀.inst := ⟨hs0, ht0, by rw [hn0]; simp⟩
  have hncp : w₀.inst.nextCommunicationPoint = .fin start := congrArg Clock.expected hcl
  rw [← hcl] at hc hccp
  rw [Nat.mul_succ] at hb
  obtain ⟨-, hn1, t1, q1, hT1, hq1, hA1⟩ := run_chained hok hh ops hw hops e₁ hT0 hncp (.inl le_rfl) (by omega) hc
  have hcl1 : w₁.inst.clock = w₀.inst.clock.run2 ops outs := run_clock hok ops
    (fun op hop i hi => hops op hop (by subst hi; simp [EndsSession, Op.fn])) _ e₁
  rw [← hcl1] at hccp
  have hccp : ccp = .fin q1 := hccp.trans hq1
  subst hccp
  obtain ⟨n, hnf, d, rfl, hpos, h1, h2, h3⟩ := doStep_ok hok hh e₂ hT1 (by omega)
  refine ⟨q1 + d, _, rfl, ?_, ⟨h3.1, h2.ahead (hA1.mono (by linarith))⟩, ?_⟩
  · rw [← h2.ticks.time]; exact reads_time hok hm.timeVar _
  · intro f a hs' hne
    obtain ⟨w', e', -⟩ := doStep_rejects (m := m) (fuel := f) (w := w₂) (h := hs') (.wrongPoint h1 hne)
    exact ⟨w', e'⟩

/-- Non-vacuity: VanDerPol started at 3 and stepped to 3.25 and from there to 3.355 is at 3.35. -/
example : (Ex.run2 VanDerPol.model .coSimulation [.setupExperiment (.fin 3) false (.fin 0)]).is
    (fun x => Ex.allOK x.2 && (run VanDerPol.model 1000 x.1 [.enterInitializationMode, .exitInitializationMode,
      .doStep (.fin 3) (.fin (1 / 4)), .doStep (.fin (13 / 4)) (.fin (105 / 1000))]).is fun y =>
        Ex.allOK y.2 && decide (y.1.inst.ctx.time = .fin (335 / 100)) &&
        decide (((⟨.fin 3, .pinf⟩ : Clock XRat).run2 [.enterInitializationMode, .exitInitializationMode,
      .doStep (.fin 3) (.fin (1 / 4)), .doStep (.fin (13 / 4)) (.fin (105 / 1000))] y.2).expected = .fin (3355 / 1000)))
    = true := by
  decide +kernel
example (o : Out XRat) : (⟨.fin 3, .pinf⟩ : Clock XRat).Chained2 [.doStep (.fin 3) (.fin 1), .doStep (.fin 4) (.fin 1)]
    [(.OK, o), (.OK, o)] := by
  simp [Clock.Chained2, Clock.after2]; decide +kernel

end FMI2

namespace FMI3
variable {D : Type} {m : Model XRat D}

/-- What entering Initialization Mode leaves behind. -/
theorem init_start (hm : OkOrError m) {w w₀ : World XRat D} {fuel start sd stop o}
    (hr : Reachable m .coSimulation w)
    (e : step m fuel w (.enterInitializationMode start sd stop) = .ret (w₀, .OK, o)) :
    w₀.inst.nSteps = 0 ∧ w₀.inst.ctx.time = start ∧ w₀.inst.startTime = start ∧
      w₀.inst.clock = ⟨start, if sd then stop else .pinf⟩ := by
  obtain ⟨h2, h3, h4⟩ := SessionStart.times hm (.init hr e)
  refine ⟨h2, h3, h4, ?_⟩
  have := step_times hm (by simp [Op.fn]) _ e
  rw [clock_of_times this]
  rfl

/-- **C20** (FMI 3.0), partial: as for FMI 2.0, for a step that returns `fmi3OK`, does not return early and does not ask
to end the simulation. Earlier steps may have returned early. `fmi3SetTime`, which the Reference FMUs accept in Event
Mode also in Co-Simulation, is excluded. -/
theorem C20_fmi3_partial (hm : RefFMU3 m) {h start : Rat} (hh : m.h = .fin h) {w w₀ w₁ w₂ : World XRat D}
    (hr : Reachable m .coSimulation w) {f₀ sd stop o₀}
    (e₀ : step m f₀ w (.enterInitializationMode (.fin start) sd stop) = .ret (w₀, .OK, o₀))
    {fuel : Nat} {ops : List (Op XRat)} {outs} (hops : ∀ op ∈ ops, ¬ EndsSession op ∧ op.fn ≠ .setTime)
    (e₁ : run m fuel w₀ ops = .ret (w₁, outs))
    (hc : (⟨.fin start, if sd then stop else .pinf⟩ : Clock XRat).Chained3 ops outs)
    {ccp hs : XRat} {out r}
    (hccp : ccp = ((⟨.fin start, if sd then stop else .pinf⟩ : Clock XRat).run3 ops outs).expected)
    (e₂ : step m fuel w₁ (.doStep ccp hs out) = .ret (w₂, .OK, .step r))
    (hearly : r.earlyReturn ≠ some true) (hterm : r.terminateSimulation ≠ some true)
    (hb : fuel * (ops.length + 1) < 2 ^ 64) :
    ∃ q t, ccp +. hs = .fin q ∧ ReadsTime m w₂ (.fin t) ∧ Near h q t ∧
      ∀ fuel ccp' hs' out, ¬ Close ccp' q →
        ∃ w', step m fuel w₂ (.doStep (.fin ccp') hs' out) = .ret (w', .Error, .step out) := by
  have hok := hm.eff.okOrError
  obtain ⟨hn0, ht0, hs0, hcl⟩ := init_start hok hr e₀
  have hT0 : Ticks h start start w₀.inst := ⟨hs0, ht0, by rw [hn0]; simp⟩
  have hncp : w₀.inst.nextCommunicationPoint = .fin start := congrArg Clock.expected hcl
  rw [← hcl] at hc hccp
  rw [Nat.mul_succ] at hb
  obtain ⟨hn1, hcl1, t1, q1, hT1, hq1, hA1⟩ := run_chained hok hh ops hops e₁ hT0 hncp (.inl le_rfl) (by omega) hc
  rw [← hcl1] at hccp
  have hccp : ccp = .fin q1 := hccp.trans hq1
  subst hccp
  obtain ⟨n, hnf, hT2, -, ⟨d, rfl, hpos, h1, h2, h3⟩ | ⟨-, h⟩⟩ := doStep_ok hok hh e₂ hT1 (by omega)
  · refine ⟨q1 + d, _, rfl, ?_, ⟨h3.1, h2.ahead (hA1.mono (by linarith))⟩, ?_⟩
    · rw [← h2.ticks.time]; exact reads_time hok hm.timeVar _
    · intro f a hs' out' hne
      obtain ⟨w', e', -⟩ := doStep_rejects (m := m) (fuel := f) (w := w₂) (h := hs') (out := out') (.wrongPoint h1 hne)
      exact ⟨w', e'⟩
  · rcases h with h | ⟨r', h, h'⟩
    · exact absurd h hterm
    · cases h; exact absurd h' hearly

/-- Non-vacuity: BouncingBall with event mode stepped over 0.1 and then 0.1234. -/
example : (Ex.runCS3 BouncingBall.model true true [.enterInitializationMode (.fin 0) false (.fin 0)]).is
    (fun x => Ex.allOK x.2 && (run BouncingBall.model 1000 x.1 [.exitInitializationMode, .enterStepMode,
      .doStep (.fin 0) (.fin (1 / 10)) Ex.stepOut, .doStep (.fin (1 / 10)) (.fin (1234 / 10000)) Ex.stepOut]).is fun y =>
        Ex.allOK y.2 && decide (y.1.inst.ctx.time = .fin (223 / 1000))) = true := by
  decide +kernel

/-- Calls that creep backwards: each step begins 1e-5 before the point where it is expected. -/
def creepOps : List (Op XRat) :=
  [.set .float64 (some [2]) 1 (some [.fin 0]) 1, .set .float64 (some [4]) 1 (some [.fin 0]) 1,
   .exitInitializationMode,
   .doStep (.fin 0) (.fin (1 / 100000)) Ex.stepOut,
   .doStep (.fin 0) (.fin (1 / 1000000)) Ex.stepOut,
   .doStep (.fin (-9 / 1000000)) (.fin (1 / 1000000)) Ex.stepOut]

/-- **C20** fails when steps begin within the tolerance of the expected point but not at it: with all calls
successful, the last step of the Roberts FMU (solver step 1e-6) is to end at -8e-6 and the FMU's time is 2e-5, which is
ahead of the end point by more than a solver step plus the tolerance. -/
theorem C20_violated : ∃ (w w' : World XRat (Roberts.Data XRat)) (outs : List (Status × Out XRat)) (r : StepOut XRat),
    SessionStart Roberts.model (.fin 0) w ∧ (∀ op ∈ creepOps, ¬ EndsSession op ∧ op.fn ≠ .setTime) ∧
    run Roberts.model 100 w creepOps = .ret (w', outs) ∧ (∀ x ∈ outs, x.1 = .OK) ∧
    outs.getLast? = some (.OK, .step r) ∧ r.earlyReturn = some false ∧ r.terminateSimulation = some false ∧
    ReadsTime Roberts.model w' (.fin (1 / 50000)) ∧
    (Roberts.model : Model XRat (Roberts.Data XRat)).h = .fin (1 / 1000000) ∧
    ¬ |(1 / 50000 : Rat) - (-9 / 1000000 + 1 / 1000000)| ≤ 1 / 1000000 + tol := by
  obtain ⟨c, hc, hp⟩ := exists_of_any (o := Ex.newCS3 Roberts.model false false)
    (p := fun c => (step Roberts.model 0 (.fresh c) (.enterInitializationMode (.fin 0) false (.fin 0))).is
      fun x => decide (x.2 = (.OK, .unit)) && (run Roberts.model 100 x.1 creepOps).is
        fun y => y.2.all (fun z => decide (z.1 = .OK)) && decide (y.1.inst.ctx.time = .fin (1 / 50000)) &&
          (match y.2.getLast? with
          | some (.OK, .step r) => decide (r.earlyReturn = some false ∧ r.terminateSimulation = some false)
          | _ => false))
    (by decide +kernel)
  obtain ⟨⟨w, s, o⟩, e1, hp⟩ := Outcome.exists_of_is hp
  simp only [Bool.and_eq_true, decide_eq_true_eq, Prod.mk.injEq] at hp
  obtain ⟨⟨rfl, rfl⟩, hp⟩ := hp
  obtain ⟨⟨w', outs⟩, e2, hp⟩ := Outcome.exists_of_is hp
  simp only [Bool.and_eq_true, decide_eq_true_eq, List.all_eq_true] at hp
  have hr : Reachable Roberts.model .coSimulation (World.fresh c) :=
    ⟨c, .fresh c, 0, [], [], .cs (Prod.ext hc rfl), ⟨rfl, fun _ => rfl, fun _ _ e => by cases e⟩, rfl⟩
  obtain ⟨⟨hp1, hp2⟩, hp3⟩ := hp
  split at hp3
  · next r hl =>
    simp only [decide_eq_true_eq] at hp3
    refine ⟨w, w', outs, r, .init hr e1, ?_, e2, hp1, hl, hp3.1, hp3.2, ?_, rfl, by unfold tol; decide +kernel⟩
    · simp [creepOps, EndsSession, Op.fn]
    · rw [← hp2]
      exact reads_time RefFMU3.roberts.eff.okOrError RefFMU3.roberts.timeVar _
  · cases hp3

end FMI3
end Verif
