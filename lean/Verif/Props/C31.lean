import Verif.Lemmas.Ball
import Verif.Examples

/-!
# C31: BouncingBall: a bounce reverses and damps the velocity, and a ball at rest stays at rest

Exact arithmetic.
-/

set_option linter.unusedSectionVars false

namespace Verif
open BouncingBall

namespace FMI2

/-- **C31**, FMI 2.0: the effect of an event on what the importer reads, and whether the FMU announces
that the continuous states have changed. -/
theorem C31_event_fmi2 {w w' : World XRat (BouncingBall.Data XRat)} {a : Ball} (h : ReadsBall w a) {fuel : Nat}
    {info o} (e : step BouncingBall.model fuel w (.newDiscreteStates info) = .ret (w', .OK, o)) :
    ∃ b, a.Event b ∧ ReadsBall w' b ∧
      ∃ i, o = .info (some i) ∧ i.valuesChanged = decide a.Hits ∧ i.terminateSimulation = false := by
  have hre := h.h.readable
  simp only [step, World.run] at e
  obtain ⟨⟨c1, s1, o1⟩, e1, e⟩ := Outcome.bind_eq_ret.1 e
  cases e
  simp only [newDiscreteStates, begin, beginFunction] at e1
  split at e1
  · have he : (BouncingBall.model (F := XRat)).eventUpdate = some eventUpdate := rfl
    rw [he] at e1
    simp only [eventUpdate_eq _ _ h.data, Comp.lift, Outcome.ret_bind, call_OK] at e1
    cases info with
    | none => cases e1
    | some i =>
      cases e1
      exact ⟨_, bounce_event a, .of_data rfl hre, _, rfl, rfl, rfl⟩
  · cases e1

/-- **C31**, FMI 2.0: a ball at rest keeps height and velocity whatever the importer does without
setting anything, in Co-Simulation and in Model Exchange, including events. -/
theorem C31_rest_fmi2 {t : IType} {w w' : World XRat (BouncingBall.Data XRat)}
    (h : Reachable BouncingBall.model t w) {a : Ball} (ha : ReadsBall w a) (hv : a.v = 0) (hg : a.g = 0) {fuel : Nat}
    {ops : List (Op XRat)} {outs} (hops : ∀ op ∈ ops, ¬ Interferes op)
    (e : run BouncingBall.model fuel w ops = .ret (w', outs)) (hs : ∀ p ∈ outs, p.1 ≠ .Error) : ReadsBall w' a :=
  have hm : RefFMU2 (BouncingBall.model : Model XRat _) := .bouncingBall
  .of_data (run_keeps (rest_keeps hv hg) hm BouncingBall.reads ops h hops ha.data e hs)
    (run_readable hm.eff.okOrError ha.h.readable hops e)

/-- Non-vacuity: in Model Exchange a ball that hits the ground rebounds, a slow one comes to rest. -/
example : (Ex.run2 BouncingBall.model .modelExchange [.setupExperiment (.fin 1) false (.fin 0),
    .enterInitializationMode, .exitInitializationMode,
    .setReal (some [1, 3]) 2 (some [.fin (-1), .fin (-2)]),
    .newDiscreteStates (some ⟨false, false, false, false, false, .fin 0⟩),
    .getReal (some [3]) 1 (some [.fin 0]),
    .setReal (some [1, 3]) 2 (some [.fin (-1), .fin (-1 / 10)]),
    .newDiscreteStates (some ⟨false, false, false, false, false, .fin 0⟩),
    .getReal (some [3]) 1 (some [.fin 9]), .getReal (some [5]) 1 (some [.fin 9])]).is
    (fun x => Ex.allOK x.2 && decide (Ex.real2 x.2 5 = some (.fin (14 / 10))) &&
      decide (Ex.real2 x.2 8 = some (.fin 0)) && decide (Ex.real2 x.2 9 = some (.fin 0))) = true := by
  decide +kernel

/-- Non-vacuity: in Co-Simulation a ball released just above the ground comes to rest there. -/
example : (Ex.run2 BouncingBall.model .coSimulation [.setupExperiment (.fin 0) false (.fin 0),
    .setReal (some [1]) 1 (some [.fin (1 / 100000)]), .enterInitializationMode, .exitInitializationMode,
    .doStep (.fin 0) (.fin (1 / 100)), .getReal (some [3]) 1 (some [.fin 9]), .getReal (some [5]) 1 (some [.fin 9]),
    .doStep (.fin (1 / 100)) (.fin (1 / 100)), .getReal (some [1]) 1 (some [.fin 9])]).is
    (fun x => Ex.allOK x.2 && decide (Ex.real2 x.2 5 = some (.fin 0)) &&
      decide (Ex.real2 x.2 6 = some (.fin 0)) && decide (Ex.real2 x.2 8 = some (.fin (1 / 2 ^ 1022)))) = true := by
  decide +kernel

end FMI2

namespace FMI3

/-- **C31**, FMI 3.0: the effect of an event on what the importer reads, and whether the FMU announces
that the continuous states have changed. -/
theorem C31_event_fmi3 {w w' : World XRat (BouncingBall.Data XRat)} {a : Ball} (h : ReadsBall w a) {fuel : Nat}
    {out o} (e : step BouncingBall.model fuel w (.updateDiscreteStates out) = .ret (w', .OK, o)) :
    ∃ b, a.Event b ∧ ReadsBall w' b ∧
      ∃ i, o = .event i ∧ i.valuesChanged = out.valuesChanged.map (fun _ => decide a.Hits) ∧
        i.terminateSimulation = out.terminateSimulation.map fun _ => false := by
  have hre := FMI3.Reads.readable h.h
  simp only [step, World.run] at e
  obtain ⟨⟨c1, s1, o1⟩, e1, e⟩ := Outcome.bind_eq_ret.1 e
  cases e
  simp only [updateDiscreteStates, begin, beginFunction] at e1
  split at e1
  · have he : (BouncingBall.model (F := XRat)).eventUpdate = some eventUpdate := rfl
    rw [he] at e1
    simp only [eventUpdate_eq _ _ h.data, Comp.lift, Outcome.ret_bind, call_OK] at e1
    cases e1
    exact ⟨_, bounce_event a, .of_data rfl hre, _, rfl, rfl, rfl⟩
  · cases e1

/-- **C31**, FMI 3.0: a ball at rest keeps height and velocity whatever the importer does without
setting anything, in every interface type, including events. -/
theorem C31_rest_fmi3 {t : IType} {w w' : World XRat (BouncingBall.Data XRat)}
    (h : ReachableProper BouncingBall.model t w) (hst : w.inst.ctx.state ∉ [.instantiated, .configurationMode, .initializationMode])
    {a : Ball} (ha : ReadsBall w a) (hv : a.v = 0) (hg : a.g = 0) {fuel : Nat}
    {ops : List (Op XRat)} {outs} (hops : ∀ op ∈ ops, ¬ Interferes op)
    (e : run BouncingBall.model fuel w ops = .ret (w', outs)) (hs : ∀ p ∈ outs, p.1 = .OK) : ReadsBall w' a :=
  have hm : RefFMU3 (BouncingBall.model : Model XRat _) := .bouncingBall
  have hok := hm.eff.okOrError
  .of_data (run_keeps (rest_keeps hv hg) hm BouncingBall.reads ops h hst hops ha.data e hs)
    ((Reachable.run hok (h.reachable hok) e).readable hok)

/-- Non-vacuity: in Event Mode a ball that hits the ground rebounds, a slow one comes to rest. -/
example : (Ex.runME3 BouncingBall.model [.enterInitializationMode (.fin 1) false (.fin 0), .exitInitializationMode,
    .set .float64 (some [1, 3]) 2 (some [.fin (-1), .fin (-2)]) 2,
    .updateDiscreteStates ⟨some false, some false, some false, some false, some false, some (.fin 0)⟩,
    .get .float64 (some [3]) 1 (some [.fin 0]) 1,
    .set .float64 (some [1, 3]) 2 (some [.fin (-1), .fin (-1 / 10)]) 2,
    .updateDiscreteStates ⟨some false, some false, some false, some false, some false, some (.fin 0)⟩,
    .get .float64 (some [3]) 1 (some [.fin 9]) 1, .get .float64 (some [5]) 1 (some [.fin 9]) 1]).is
    (fun x => Ex.allOK x.2 && decide (Ex.real3 x.2 4 = some (.fin (14 / 10))) &&
      decide (Ex.real3 x.2 7 = some (.fin 0)) && decide (Ex.real3 x.2 8 = some (.fin 0))) = true := by
  decide +kernel

/-- Non-vacuity: in Co-Simulation a ball released just above the ground comes to rest there. -/
example : (Ex.runCS3 BouncingBall.model false false [.set .float64 (some [1]) 1 (some [.fin (1 / 100000)]) 1,
    .enterInitializationMode (.fin 0) false (.fin 0), .exitInitializationMode,
    .doStep (.fin 0) (.fin (1 / 100)) Ex.stepOut, .get .float64 (some [3]) 1 (some [.fin 9]) 1,
    .get .float64 (some [5]) 1 (some [.fin 9]) 1,
    .doStep (.fin (1 / 100)) (.fin (1 / 100)) Ex.stepOut, .get .float64 (some [1]) 1 (some [.fin 9]) 1]).is
    (fun x => Ex.allOK x.2 && decide (Ex.real3 x.2 4 = some (.fin 0)) &&
      decide (Ex.real3 x.2 5 = some (.fin 0)) && decide (Ex.real3 x.2 7 = some (.fin (1 / 2 ^ 1022)))) = true := by
  decide +kernel

end FMI3
end Verif
