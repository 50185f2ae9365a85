import Verif.Lemmas.Restart
import Verif.Lemmas.ExReach

/-!
# C09: a reset instance behaves like a new one

The histories before the reset, and the calls after it, are arbitrary sequences of calls of the API (`History2.lean`,
`History3.lean`). `Outcome.shown` (`Spec/Uses.lean`) is all the importer sees of the calls after the reset: the status and the outputs
of every one of them, or that one of them is undefined or does not return. It is compared with what the importer sees when it makes the
same calls on the instance as it was when it was instantiated.

Two restrictions belong to the property: the calls after the reset do not use FMU states saved before it (`Separate`, a new instance has
none), and the calls follow the FMI standard in that FMI 2.0 importers call `fmi2SetupExperiment` before they initialise the instance and
FMI 3.0 importers do not call `fmi3EnterStepMode` in Initialization Mode (`Spec/Restart.lean`).
-/

set_option linter.unusedSectionVars false

namespace Verif

namespace FMI2
variable {F D : Type} [Arith F] [HasInf F] {m : Model F D}

/-- **C09**, FMI 2.0, every FMU but Stair. -/
theorem C09_partial (hm : Endless2 m) {name t guid resource functions loggingOn mem l} {c : Comp F D}
    (hc : instantiate m name t guid resource functions loggingOn mem = (some c, l)) {w₀ w w' : World F D} (hi : w₀.Initial c)
    {fuel fuel₁ fuel' : Nat} {before : List (Op F)} {outs} (h : run m fuel w₀ before = .ret (w, outs))
    {o} (e : step m fuel₁ w .reset = .ret (w', .OK, o))
    {pre rest : List (Op F)} (hpre : ∀ op ∈ pre, BeforeSetup op) {start stop : F} {stopDefined : Bool} {w₁ w₂ : World F D} {outs₁ o₂}
    (e₁ : run m fuel' w₀ pre = .ret (w₁, outs₁)) (e₂ : step m fuel' w₁ (.setupExperiment start stopDefined stop) = .ret (w₂, .OK, o₂))
    (hsep : Separate before rest) :
    (run m fuel' w' (pre ++ .setupExperiment start stopDefined stop :: rest)).shown =
      (run m fuel' w₀ (pre ++ .setupExperiment start stopDefined stop :: rest)).shown := by
  cases hm
  · exact restart (RefFMU2.eff .bouncingBall).okOrError BouncingBall.renews hc hi h trivial e hpre e₁ e₂ hsep
  · exact restart (RefFMU2.eff .dahlquist).okOrError Dahlquist.renews hc hi h trivial e hpre e₁ e₂ hsep
  · exact restart (RefFMU2.eff .feedthrough).okOrError (Feedthrough.renews false) hc hi h trivial e hpre e₁ e₂ hsep
  · exact restart (RefFMU2.eff (.resource _)).okOrError (Resource.renews false _) hc hi h trivial e hpre e₁ e₂ hsep
  · exact restart (RefFMU2.eff .vanDerPol).okOrError VanDerPol.renews hc hi h trivial e hpre e₁ e₂ hsep

/-- **C09** for Stair in FMI 2.0, if it is not asking for the termination of the simulation when it is reset. -/
theorem C09_stair_partial {name t guid resource functions loggingOn mem l} {c : Comp F Stair.Data}
    (hc : instantiate Stair.model name t guid resource functions loggingOn mem = (some c, l)) {w₀ w w' : World F Stair.Data}
    (hi : w₀.Initial c) {fuel fuel₁ fuel' : Nat} {before : List (Op F)} {outs} (h : run Stair.model fuel w₀ before = .ret (w, outs))
    (ht : w.inst.mv.terminateSimulation = false) {o} (e : step Stair.model fuel₁ w .reset = .ret (w', .OK, o))
    {pre rest : List (Op F)} (hpre : ∀ op ∈ pre, BeforeSetup op) {start stop : F} {stopDefined : Bool}
    {w₁ w₂ : World F Stair.Data} {outs₁ o₂}
    (e₁ : run Stair.model fuel' w₀ pre = .ret (w₁, outs₁))
    (e₂ : step Stair.model fuel' w₁ (.setupExperiment start stopDefined stop) = .ret (w₂, .OK, o₂))
    (hsep : Separate before rest) :
    (run Stair.model fuel' w' (pre ++ .setupExperiment start stopDefined stop :: rest)).shown =
      (run Stair.model fuel' w₀ (pre ++ .setupExperiment start stopDefined stop :: rest)).shown :=
  restart (RefFMU2.eff .stair).okOrError Stair.renews hc hi h ht e hpre e₁ e₂ hsep

/-- Not vacuous: a bouncing ball that has been simulated is reset; afterwards its gravity is set before `fmi2SetupExperiment`. -/
example : ∃ c l w w' outs o w₁ w₂ outs₁ o₂,
    instantiate (BouncingBall.model (F := XRat)) (some "i") .coSimulation (some (BouncingBall.model (F := XRat)).token) none (some true)
      true true = (some c, l) ∧
    run BouncingBall.model 1000 (.fresh c) (Ex.init2 ++ [.doStep (.fin 0) (.fin (1/500)), .getFMUstate 0]) = .ret (w, outs) ∧
    step BouncingBall.model 1000 w .reset = .ret (w', .OK, o) ∧
    (∀ op ∈ [Op.setReal (some [5]) 1 (some [XRat.fin (-1)])], BeforeSetup op) ∧
    run BouncingBall.model 1000 (.fresh c) [.setReal (some [5]) 1 (some [.fin (-1)])] = .ret (w₁, outs₁) ∧
    step BouncingBall.model 1000 w₁ (.setupExperiment (.fin 0) false (.fin 0)) = .ret (w₂, .OK, o₂) := by
  obtain ⟨c, hc, h⟩ := exists_of_any (o := Ex.new2 BouncingBall.model .coSimulation) (p := fun c =>
    ((run BouncingBall.model 1000 (.fresh c) (Ex.init2 ++ [.doStep (.fin 0) (.fin (1/500)), .getFMUstate 0])).is fun x =>
      (step BouncingBall.model 1000 x.1 .reset).is fun y => y.2.1 == .OK) &&
    (run BouncingBall.model 1000 (.fresh c) [.setReal (some [5]) 1 (some [.fin (-1)])]).is fun x =>
      (step BouncingBall.model 1000 x.1 (.setupExperiment (.fin 0) false (.fin 0))).is fun y => y.2.1 == .OK) (by decide +kernel)
  simp only [Bool.and_eq_true] at h
  obtain ⟨⟨w, outs⟩, e, h1⟩ := Outcome.exists_of_is h.1
  obtain ⟨⟨w', s, o⟩, e', h1⟩ := Outcome.exists_of_is h1
  obtain ⟨⟨w₁, outs₁⟩, e₁, h2⟩ := Outcome.exists_of_is h.2
  obtain ⟨⟨w₂, s₂, o₂⟩, e₂, h2⟩ := Outcome.exists_of_is h2
  simp only [beq_iff_eq] at h1 h2
  refine ⟨c, _, w, w', outs, o, w₁, w₂, outs₁, o₂, Prod.ext hc rfl, e, by rw [e', h1], ?_, e₁, by rw [e₂, h2]⟩
  intro op hop
  rw [List.mem_singleton] at hop
  subst hop
  exact ⟨by simp [Op.fn], rfl, rfl⟩

/-- Not vacuous for Stair: it is reset after its first event. -/
example : ∃ c l w w' outs o,
    instantiate (Stair.model (F := XRat)) (some "i") .coSimulation (some (Stair.model (F := XRat)).token) none (some true) true true =
      (some c, l) ∧
    run Stair.model 1000 (.fresh c) (Ex.init2 ++ [.doStep (.fin 0) (.fin (6/5))]) = .ret (w, outs) ∧
    w.inst.mv.data.counter = 2 ∧ w.inst.mv.terminateSimulation = false ∧
    step Stair.model 1000 w .reset = .ret (w', .OK, o) := by
  obtain ⟨c, hc, h⟩ := exists_of_any (o := Ex.new2 Stair.model .coSimulation) (p := fun c =>
    (run Stair.model 1000 (.fresh c) (Ex.init2 ++ [.doStep (.fin 0) (.fin (6/5))])).is fun x =>
      x.1.inst.mv.data.counter == 2 && x.1.inst.mv.terminateSimulation == false &&
      (step Stair.model 1000 x.1 .reset).is fun y => y.2.1 == .OK) (by decide +kernel)
  obtain ⟨⟨w, outs⟩, e, h1⟩ := Outcome.exists_of_is h
  simp only [Bool.and_eq_true, beq_iff_eq] at h1
  obtain ⟨⟨w', s, o⟩, e', h2⟩ := Outcome.exists_of_is h1.2
  simp only [beq_iff_eq] at h2
  exact ⟨c, _, w, w', outs, o, Prod.ext hc rfl, e, h1.1.1, h1.1.2, by rw [e', h2]⟩

/-- **C09** does not hold for Stair. Once it has asked for the termination of the simulation, it goes on asking for it after
`fmi2Reset`: the first `fmi2DoStep` returns `fmi2Discard`, on a new instance it returns `fmi2OK`. `reset` does not clear
`terminateSimulation`, and Stair only assigns it in its first event, one second later. -/
theorem C09_violated_stair : ∃ c l w w' outs o z z',
    instantiate (Stair.model (F := XRat)) (some "i") .coSimulation (some (Stair.model (F := XRat)).token) none (some true) true true =
      (some c, l) ∧
    run Stair.model 1000 (.fresh c) (Ex.init2 ++ [.doStep (.fin 0) (.fin 9)]) = .ret (w, outs) ∧
    step Stair.model 1000 w .reset = .ret (w', .OK, o) ∧
    run Stair.model 1000 w' (Ex.init2 ++ [.doStep (.fin 0) (.fin (1/5))]) = .ret z ∧
    run Stair.model 1000 (.fresh c) (Ex.init2 ++ [.doStep (.fin 0) (.fin (1/5))]) = .ret z' ∧
    z.2.map (·.1) = [.OK, .OK, .OK, .Discard] ∧ z'.2.map (·.1) = [.OK, .OK, .OK, .OK] := by
  obtain ⟨c, hc, h⟩ := exists_of_any (o := Ex.new2 Stair.model .coSimulation) (p := fun c =>
    ((run Stair.model 1000 (.fresh c) (Ex.init2 ++ [.doStep (.fin 0) (.fin 9)])).is fun x =>
      (step Stair.model 1000 x.1 .reset).is fun y => y.2.1 == .OK &&
      (run Stair.model 1000 y.1 (Ex.init2 ++ [.doStep (.fin 0) (.fin (1/5))])).is fun z =>
        z.2.map (·.1) == [.OK, .OK, .OK, .Discard]) &&
    (run Stair.model 1000 (.fresh c) (Ex.init2 ++ [.doStep (.fin 0) (.fin (1/5))])).is fun z =>
        z.2.map (·.1) == [.OK, .OK, .OK, .OK]) (by decide +kernel)
  simp only [Bool.and_eq_true] at h
  obtain ⟨⟨w, outs⟩, e, h1⟩ := Outcome.exists_of_is h.1
  obtain ⟨⟨w', s, o⟩, e', h1⟩ := Outcome.exists_of_is h1
  simp only [Bool.and_eq_true, beq_iff_eq] at h1
  obtain ⟨z, ez, h2⟩ := Outcome.exists_of_is h1.2
  obtain ⟨z', ez', h3⟩ := Outcome.exists_of_is h.2
  exact ⟨c, _, w, w', outs, o, z, z', Prod.ext hc rfl, e, by rw [e', h1.1], ez, ez', beq_iff_eq.1 h2, beq_iff_eq.1 h3⟩

/-- **C09** needs `fmi2SetupExperiment`. The Reference FMUs can be initialised without it; then a reset instance still has the stop time
of the previous simulation, a new one the stop time zero. -/
theorem C09_violated_noSetup : ∃ c l w w' outs o z z',
    instantiate (Dahlquist.model (F := XRat)) (some "i") .coSimulation (some (Dahlquist.model (F := XRat)).token) none (some true)
      true true = (some c, l) ∧
    run Dahlquist.model 1000 (.fresh c) [.setupExperiment (.fin 0) true (.fin 1)] = .ret (w, outs) ∧
    step Dahlquist.model 1000 w .reset = .ret (w', .OK, o) ∧
    run Dahlquist.model 1000 w' [.enterInitializationMode, .exitInitializationMode, .doStep (.fin 0) (.fin 1)] = .ret z ∧
    run Dahlquist.model 1000 (.fresh c) [.enterInitializationMode, .exitInitializationMode, .doStep (.fin 0) (.fin 1)] = .ret z' ∧
    z.2.map (·.1) = [.OK, .OK, .OK] ∧ z'.2.map (·.1) = [.OK, .OK, .Error] := by
  obtain ⟨c, hc, h⟩ := exists_of_any (o := Ex.new2 Dahlquist.model .coSimulation) (p := fun c =>
    ((run Dahlquist.model 1000 (.fresh c) [.setupExperiment (.fin 0) true (.fin 1)]).is fun x =>
      (step Dahlquist.model 1000 x.1 .reset).is fun y => y.2.1 == .OK &&
      (run Dahlquist.model 1000 y.1 [.enterInitializationMode, .exitInitializationMode, .doStep (.fin 0) (.fin 1)]).is fun z =>
        z.2.map (·.1) == [.OK, .OK, .OK]) &&
    (run Dahlquist.model 1000 (.fresh c) [.enterInitializationMode, .exitInitializationMode, .doStep (.fin 0) (.fin 1)]).is fun z =>
        z.2.map (·.1) == [.OK, .OK, .Error]) (by decide +kernel)
  simp only [Bool.and_eq_true] at h
  obtain ⟨⟨w, outs⟩, e, h1⟩ := Outcome.exists_of_is h.1
  obtain ⟨⟨w', s, o⟩, e', h1⟩ := Outcome.exists_of_is h1
  simp only [Bool.and_eq_true, beq_iff_eq] at h1
  obtain ⟨z, ez, h2⟩ := Outcome.exists_of_is h1.2
  obtain ⟨z', ez', h3⟩ := Outcome.exists_of_is h.2
  exact ⟨c, _, w, w', outs, o, z, z', Prod.ext hc rfl, e, by rw [e', h1.1], ez, ez', beq_iff_eq.1 h2, beq_iff_eq.1 h3⟩

end FMI2

namespace FMI3
variable {F D : Type} [Arith F] [HasInf F] {m : Model F D}

/-- **C09**, FMI 3.0, every FMU but Stair and StateSpace. -/
theorem C09_partial (hm : Endless3 m) {t : IType} {c : Comp F D} (hc : New m t c) {w₀ w w' : World F D} (hi : w₀.Initial c)
    {fuel fuel₁ fuel' : Nat} {before : List (Op F)} {outs} (h : run m fuel w₀ before = .ret (w, outs))
    {o} (e : step m fuel₁ w .reset = .ret (w', .OK, o)) {later : List (Op F)} (hp : ProperCalls m fuel' w₀ later)
    (hsep : Separate before later) :
    (run m fuel' w' later).shown = (run m fuel' w₀ later).shown := by
  cases hm
  · exact restart (RefFMU3.eff .bouncingBall).okOrError BouncingBall.renews hc hi h trivial e hp hsep
  · exact restart (RefFMU3.eff .clocks).okOrError Clocks.renews hc hi h trivial e hp hsep
  · exact restart (RefFMU3.eff .dahlquist).okOrError Dahlquist.renews hc hi h trivial e hp hsep
  · exact restart (RefFMU3.eff .feedthrough).okOrError (Feedthrough.renews true) hc hi h trivial e hp hsep
  · exact restart (RefFMU3.eff (.resource _)).okOrError (Resource.renews true _) hc hi h trivial e hp hsep
  · exact restart (RefFMU3.eff .roberts).okOrError Roberts.renews hc hi h trivial e hp hsep
  · exact restart (RefFMU3.eff .vanDerPol).okOrError VanDerPol.renews hc hi h trivial e hp hsep

/-- **C09** for Stair in FMI 3.0, if it is not asking for the termination of the simulation when it is reset. -/
theorem C09_stair_partial {t : IType} {c : Comp F Stair.Data} (hc : New Stair.model t c) {w₀ w w' : World F Stair.Data}
    (hi : w₀.Initial c) {fuel fuel₁ fuel' : Nat} {before : List (Op F)} {outs} (h : run Stair.model fuel w₀ before = .ret (w, outs))
    (ht : w.inst.mv.terminateSimulation = false) {o} (e : step Stair.model fuel₁ w .reset = .ret (w', .OK, o))
    {later : List (Op F)} (hp : ProperCalls Stair.model fuel' w₀ later) (hsep : Separate before later) :
    (run Stair.model fuel' w' later).shown = (run Stair.model fuel' w₀ later).shown :=
  restart (RefFMU3.eff .stair).okOrError Stair.renews hc hi h ht e hp hsep

/-- **C09** for StateSpace, if the vector `x0` is zero, its initial value, when the instance is reset. -/
theorem C09_stateSpace_partial {t : IType} {c : Comp F (StateSpace.Data F)} (hc : New StateSpace.model t c)
    {w₀ w w' : World F (StateSpace.Data F)} (hi : w₀.Initial c) {fuel fuel₁ fuel' : Nat} {before : List (Op F)} {outs}
    (h : run StateSpace.model fuel w₀ before = .ret (w, outs)) (hx : ∀ i, w.inst.mv.data.x0 i = Arith.lit 0)
    {o} (e : step StateSpace.model fuel₁ w .reset = .ret (w', .OK, o))
    {later : List (Op F)} (hp : ProperCalls StateSpace.model fuel' w₀ later) (hsep : Separate before later) :
    (run StateSpace.model fuel' w' later).shown = (run StateSpace.model fuel' w₀ later).shown :=
  restart (RefFMU3.eff .stateSpace).okOrError StateSpace.renews hc hi h hx e hp hsep

/-- Not vacuous: Van der Pol is reset after a simulation and simulated again; so is Stair. -/
example : ∃ c w w' outs o, New (VanDerPol.model (F := XRat)) .coSimulation c ∧
    run VanDerPol.model 1000 (.fresh c) (Ex.init3 ++ [.doStep (.fin 0) (.fin (1/50)) Ex.stepOut, .getFMUState 0]) = .ret (w, outs) ∧
    step VanDerPol.model 1000 w .reset = .ret (w', .OK, o) ∧
    ProperCalls VanDerPol.model 1000 (.fresh c) (Ex.init3 ++ [.doStep (.fin 0) (.fin (1/50)) Ex.stepOut]) := by
  obtain ⟨c, hc, h⟩ := exists_of_any (o := Ex.newCS3 VanDerPol.model false false) (p := fun c =>
    (run VanDerPol.model 1000 (.fresh c) (Ex.init3 ++ [.doStep (.fin 0) (.fin (1/50)) Ex.stepOut, .getFMUState 0])).is fun x =>
      (step VanDerPol.model 1000 x.1 .reset).is fun y => y.2.1 == .OK) (by decide +kernel)
  obtain ⟨⟨w, outs⟩, e, h1⟩ := Outcome.exists_of_is h
  obtain ⟨⟨w', s, o⟩, e', h1⟩ := Outcome.exists_of_is h1
  simp only [beq_iff_eq] at h1
  refine ⟨c, w, w', outs, o, .cs (Prod.ext hc rfl), e, by rw [e', h1], ?_⟩
  simp only [Ex.init3, List.cons_append, List.nil_append, ProperCalls, Op.fn]
  simp

/-- Not vacuous for StateSpace: the instance is being initialised when it is reset. -/
example : ∃ c w w' outs o, New (StateSpace.model (F := XRat)) .coSimulation c ∧
    run StateSpace.model 1000 (.fresh c) [.set .float64 (some [9]) 1 (some [.fin 5, .fin 6, .fin 7]) 3,
      .enterInitializationMode (.fin 0) false (.fin 0)] = .ret (w, outs) ∧
    (∀ i, w.inst.mv.data.x0 i = Arith.lit 0) ∧ step StateSpace.model 1000 w .reset = .ret (w', .OK, o) := by
  have hx : ∀ c, Ex.newCS3 StateSpace.model false false = some c → (match run (StateSpace.model (F := XRat)) 1000 (.fresh c)
      [.set .float64 (some [9]) 1 (some [.fin 5, .fin 6, .fin 7]) 3, .enterInitializationMode (.fin 0) false (.fin 0)] with
      | .ret x => x.1.inst.mv.data.x0
      | _ => fun _ => .fin 1) = fun _ => Arith.lit 0 := by
    intro c hc
    cases hc
    rfl
  obtain ⟨c, hc, h⟩ := exists_of_any (o := Ex.newCS3 StateSpace.model false false) (p := fun c =>
    (run StateSpace.model 1000 (.fresh c) [.set .float64 (some [9]) 1 (some [.fin 5, .fin 6, .fin 7]) 3,
      .enterInitializationMode (.fin 0) false (.fin 0)]).is fun x =>
      x.2.map (·.1) == [.OK, .OK] && (step StateSpace.model 1000 x.1 .reset).is fun y => y.2.1 == .OK) (by decide +kernel)
  obtain ⟨⟨w, outs⟩, e, h1⟩ := Outcome.exists_of_is h
  simp only [Bool.and_eq_true] at h1
  obtain ⟨⟨w', s, o⟩, e', h1⟩ := Outcome.exists_of_is h1.2
  simp only [beq_iff_eq] at h1
  have hx := hx c hc
  rw [e] at hx
  exact ⟨c, w, w', outs, o, .cs (Prod.ext hc rfl), e, fun i => congrFun hx i, by rw [e', h1]⟩

/-- **C09** does not hold for Stair in FMI 3.0 either: after the reset, `fmi3DoStep` reports `terminateSimulation` from the first step
on. -/
theorem C09_violated_stair : ∃ c w w' outs o z z', New (Stair.model (F := XRat)) .coSimulation c ∧
    run Stair.model 1000 (.fresh c) (Ex.init3 ++ [.doStep (.fin 0) (.fin 9) Ex.stepOut]) = .ret (w, outs) ∧
    step Stair.model 1000 w .reset = .ret (w', .OK, o) ∧
    run Stair.model 1000 w' (Ex.init3 ++ [.doStep (.fin 0) (.fin (1/5)) Ex.stepOut]) = .ret z ∧
    run Stair.model 1000 (.fresh c) (Ex.init3 ++ [.doStep (.fin 0) (.fin (1/5)) Ex.stepOut]) = .ret z' ∧
    z.2[2]? = some (.OK, .step ⟨some false, some true, some false, some (.fin (1/5))⟩) ∧
    z'.2[2]? = some (.OK, .step ⟨some false, some false, some false, some (.fin (1/5))⟩) := by
  obtain ⟨c, hc, h⟩ := exists_of_any (o := Ex.newCS3 Stair.model false false) (p := fun c =>
    ((run Stair.model 1000 (.fresh c) (Ex.init3 ++ [.doStep (.fin 0) (.fin 9) Ex.stepOut])).is fun x =>
      (step Stair.model 1000 x.1 .reset).is fun y => y.2.1 == .OK &&
      (run Stair.model 1000 y.1 (Ex.init3 ++ [.doStep (.fin 0) (.fin (1/5)) Ex.stepOut])).is fun z =>
        z.2[2]? == some (.OK, .step ⟨some false, some true, some false, some (.fin (1/5))⟩)) &&
    (run Stair.model 1000 (.fresh c) (Ex.init3 ++ [.doStep (.fin 0) (.fin (1/5)) Ex.stepOut])).is fun z =>
        z.2[2]? == some (.OK, .step ⟨some false, some false, some false, some (.fin (1/5))⟩)) (by decide +kernel)
  simp only [Bool.and_eq_true] at h
  obtain ⟨⟨w, outs⟩, e, h1⟩ := Outcome.exists_of_is h.1
  obtain ⟨⟨w', s, o⟩, e', h1⟩ := Outcome.exists_of_is h1
  simp only [Bool.and_eq_true, beq_iff_eq] at h1
  obtain ⟨z, ez, h2⟩ := Outcome.exists_of_is h1.2
  obtain ⟨z', ez', h3⟩ := Outcome.exists_of_is h.2
  exact ⟨c, w, w', outs, o, z, z', .cs (Prod.ext hc rfl), e, by rw [e', h1.1], ez, ez', beq_iff_eq.1 h2, beq_iff_eq.1 h3⟩

/-- **C09** does not hold for StateSpace: its parameter `x0` keeps the value set before the reset. -/
theorem C09_violated_stateSpace : ∃ c w w' outs o z z', New (StateSpace.model (F := XRat)) .coSimulation c ∧
    run StateSpace.model 1000 (.fresh c) [.set .float64 (some [8]) 1 (some [.fin 5, .fin 6, .fin 7]) 3] = .ret (w, outs) ∧
    step StateSpace.model 1000 w .reset = .ret (w', .OK, o) ∧
    run StateSpace.model 1000 w' (Ex.init3 ++ [.get .float64 (some [8]) 1 (some [.fin 1, .fin 1, .fin 1]) 3]) = .ret z ∧
    run StateSpace.model 1000 (.fresh c) (Ex.init3 ++ [.get .float64 (some [8]) 1 (some [.fin 1, .fin 1, .fin 1]) 3]) = .ret z' ∧
    z.2[2]? = some (.OK, .values .float64 (some [.fin 5, .fin 6, .fin 7])) ∧
    z'.2[2]? = some (.OK, .values .float64 (some [.fin 0, .fin 0, .fin 0])) := by
  obtain ⟨c, hc, h⟩ := exists_of_any (o := Ex.newCS3 StateSpace.model false false) (p := fun c =>
    ((run StateSpace.model 1000 (.fresh c) [.set .float64 (some [8]) 1 (some [.fin 5, .fin 6, .fin 7]) 3]).is fun x =>
      (step StateSpace.model 1000 x.1 .reset).is fun y => y.2.1 == .OK &&
      (run StateSpace.model 1000 y.1 (Ex.init3 ++ [.get .float64 (some [8]) 1 (some [.fin 1, .fin 1, .fin 1]) 3])).is fun z =>
        z.2[2]? == some (.OK, .values .float64 (some [.fin 5, .fin 6, .fin 7]))) &&
    (run StateSpace.model 1000 (.fresh c) (Ex.init3 ++ [.get .float64 (some [8]) 1 (some [.fin 1, .fin 1, .fin 1]) 3])).is fun z =>
        z.2[2]? == some (.OK, .values .float64 (some [.fin 0, .fin 0, .fin 0]))) (by decide +kernel)
  simp only [Bool.and_eq_true] at h
  obtain ⟨⟨w, outs⟩, e, h1⟩ := Outcome.exists_of_is h.1
  obtain ⟨⟨w', s, o⟩, e', h1⟩ := Outcome.exists_of_is h1
  simp only [Bool.and_eq_true, beq_iff_eq] at h1
  obtain ⟨z, ez, h2⟩ := Outcome.exists_of_is h1.2
  obtain ⟨z', ez', h3⟩ := Outcome.exists_of_is h.2
  exact ⟨c, w, w', outs, o, z, z', .cs (Prod.ext hc rfl), e, by rw [e', h1.1], ez, ez', beq_iff_eq.1 h2, beq_iff_eq.1 h3⟩

end FMI3

end Verif
