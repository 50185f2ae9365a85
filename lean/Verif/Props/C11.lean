import Verif.Lemmas.ReadRel
import Verif.Lemmas.RelRobertsFixed
import Verif.Lemmas.ExReach

/-!
# C11: reading does not influence the simulation

The functions that read are listed in `Spec/Reading.lean`. `Outcome.shown` (`Spec/Uses.lean`) is all the importer sees of a
sequence of calls: the status and the outputs of every call, or that one of them is undefined or does not return.
-/

set_option linter.unusedSectionVars false

namespace Verif

namespace FMI2
variable {F D : Type} [Arith F] [HasInf F] {m : Model F D}

/-- **C11**, FMI 2.0. If a read succeeds, every later sequence of calls returns what it would have returned without the
read. -/
theorem C11 (hm : FileFree2 m) {t : IType} {w w' : World F D} (hw : Reachable m t w) {op : Op F}
    (hop : Spec.asks op.fn = true) {fuel : Nat} {o} (h : step m fuel w op = .ret (w', .OK, o)) (fuel' : Nat) (later : List (Op F)) :
    (run m fuel' w' later).shown = (run m fuel' w later).shown := by
  have hk := hm.ref.eff.okOrError
  cases hm
  · exact read_shown hk BouncingBall.respects (Same.refl _) BouncingBall.passes hw trivial hop h _ _
  · exact read_shown hk Dahlquist.respects (Same.refl _) Dahlquist.passes hw trivial hop h _ _
  · exact read_shown hk Feedthrough.respects (Same.refl _) (Feedthrough.passes false) hw trivial hop h _ _
  · exact read_shown hk Stair.respects (Same.refl _) Stair.passes hw trivial hop h _ _
  · exact read_shown hk VanDerPol.respects (Same.refl _) VanDerPol.passes hw trivial hop h _ _

/-- Not vacuous: a bouncing ball in Co-Simulation, between two steps. -/
example : ∃ w w' o, Reachable (BouncingBall.model (F := XRat)) .coSimulation w ∧
    step BouncingBall.model 1000 w (.getReal (some [1, 4]) 2 (some [.fin 0, .fin 0])) = .ret (w', .OK, o) := by
  obtain ⟨x, e, h⟩ := Outcome.exists_of_is
    (r := Ex.run2 BouncingBall.model .coSimulation (Ex.init2 ++ [.doStep (.fin 0) (.fin (1/500))]))
    (p := fun x => (step BouncingBall.model 1000 x.1 (.getReal (some [1, 4]) 2 (some [.fin 0, .fin 0]))).is fun y => y.2.1 == .OK)
    (by decide +kernel)
  obtain ⟨⟨w', s, o⟩, e', h'⟩ := Outcome.exists_of_is h
  simp only [beq_iff_eq] at h'
  exact ⟨x.1, w', o, Ex.reach_run2 e, by rw [e', h']⟩

end FMI2

namespace FMI3
variable {F D : Type} [Arith F] [HasInf F] {m : Model F D}

/-- **C11**, FMI 3.0, every FMU but Resource and Roberts. If a read succeeds, every later sequence of calls returns what it
would have returned without the read. -/
theorem C11_partial (hm : FileFree3 m) {t : IType} {w w' : World F D} (hw : Reachable m t w) {op : Op F}
    (hop : Spec.asks op.fn = true) {fuel : Nat} {o} (h : step m fuel w op = .ret (w', .OK, o)) (fuel' : Nat) (later : List (Op F)) :
    (run m fuel' w' later).shown = (run m fuel' w later).shown := by
  have hk := hm.ref.eff.okOrError
  cases hm
  · exact read_shown hk BouncingBall.respects (Same.refl _) BouncingBall.passes hw trivial hop h _ _
  · exact read_shown hk Clocks.respects (Same.refl _) Clocks.passes hw trivial hop h _ _
  · exact read_shown hk Dahlquist.respects (Same.refl _) Dahlquist.passes hw trivial hop h _ _
  · exact read_shown hk Feedthrough.respects (Same.refl _) (Feedthrough.passes true) hw trivial hop h _ _
  · exact read_shown hk Stair.respects (Same.refl _) Stair.passes hw trivial hop h _ _
  · exact read_shown hk StateSpace.respects (Same.refl _) StateSpace.passes hw
      (hw.mv hk StateSpace.dims rfl).inst hop h _ _
  · exact read_shown hk VanDerPol.respects (Same.refl _) VanDerPol.passes hw trivial hop h _ _

/-- Not vacuous: the derivatives of Van der Pol in Model Exchange. -/
example : ∃ w w' o, Reachable (VanDerPol.model (F := XRat)) .modelExchange w ∧
    step VanDerPol.model 1000 w (.getDerivatives (some [.fin 0, .fin 0]) 2) = .ret (w', .OK, o) := by
  obtain ⟨x, e, h⟩ := Outcome.exists_of_is
    (r := Ex.runME3 VanDerPol.model (Ex.init3 ++ [.setContinuousStates (some [.fin 1, .fin 3]) 2]))
    (p := fun x => (step VanDerPol.model 1000 x.1 (.getDerivatives (some [.fin 0, .fin 0]) 2)).is fun y => y.2.1 == .OK)
    (by decide +kernel)
  obtain ⟨⟨w', s, o⟩, e', h'⟩ := Outcome.exists_of_is h
  simp only [beq_iff_eq] at h'
  exact ⟨x.1, w', o, Ex.reach_runME3 e, by rw [e', h']⟩

/-- **C11** for Roberts, as long as `fmi3SetBoolean` (which sets `dae`) is not called later. -/
theorem C11_roberts_partial {t : IType} {w w' : World F (Roberts.Data F)} (hw : Reachable Roberts.model t w) {op : Op F}
    (hop : Spec.asks op.fn = true) {fuel : Nat} {o} (h : step Roberts.model fuel w op = .ret (w', .OK, o)) (fuel' : Nat)
    (later : List (Op F)) (hl : ∀ op ∈ later, op.fn ≠ .set .boolean) :
    (run Roberts.model fuel' w' later).shown = (run Roberts.model fuel' w later).shown :=
  Roberts.Fixed.read_shown hw hop h fuel' later hl

/-- Not vacuous: `y3` read after setting `y1`, and later calls that show its value. -/
example : ∃ w w' o, Reachable (Roberts.model (F := XRat)) .modelExchange w ∧
    step Roberts.model 1000 w (.get .float64 (some [6]) 1 (some [.fin 9]) 1) = .ret (w', .OK, o) ∧
    ∀ op ∈ ([.get .float64 (some [6]) 1 (some [.fin 9]) 1] : List (Op XRat)), op.fn ≠ .set .boolean := by
  obtain ⟨x, e, h⟩ := Outcome.exists_of_is
    (r := Ex.runME3 Roberts.model [.set .float64 (some [2]) 1 (some [.fin (1/2)]) 1])
    (p := fun x => (step Roberts.model 1000 x.1 (.get .float64 (some [6]) 1 (some [.fin 9]) 1)).is fun y => y.2.1 == .OK)
    (by decide +kernel)
  obtain ⟨⟨w', s, o⟩, e', h'⟩ := Outcome.exists_of_is h
  simp only [beq_iff_eq] at h'
  exact ⟨x.1, w', o, Ex.reach_runME3 e, by rw [e', h'], by simp [Op.fn]⟩

/-- What is missing for Roberts: reading recomputes `y3` while `dae` is false, and the recomputed value stays visible once
`dae` is set. After setting `y1` to 1/2, setting `dae` and reading `y3` gives 0, but 1/2 if `y1` was read in between. -/
theorem C11_violated_roberts : ∃ (w w' : World XRat (Roberts.Data XRat)) (read : Op XRat) (o : Out XRat) (later : List (Op XRat)),
    Reachable Roberts.model .modelExchange w ∧ Spec.asks read.fn = true ∧
    step Roberts.model 1000 w read = .ret (w', .OK, o) ∧
    (run Roberts.model 1000 w later).shown ≠ (run Roberts.model 1000 w' later).shown := by
  obtain ⟨x, e, h⟩ := Outcome.exists_of_is
    (r := Ex.runME3 Roberts.model [.set .float64 (some [2]) 1 (some [.fin (1/2)]) 1])
    (p := fun x => (run Roberts.model 1000 x.1 [.set .boolean (some [1]) 1 (some [true]) 1,
        .get .float64 (some [6]) 1 (some [.fin 9]) 1]).is (fun y => decide (Ex.real3 y.2 1 = some (.fin 0))) &&
      (step Roberts.model 1000 x.1 (.get .float64 (some [2]) 1 (some [.fin 9]) 1)).is fun y => y.2.1 == .OK &&
        (run Roberts.model 1000 y.1 [.set .boolean (some [1]) 1 (some [true]) 1,
          .get .float64 (some [6]) 1 (some [.fin 9]) 1]).is (fun z => decide (Ex.real3 z.2 1 = some (.fin (1/2)))))
    (by decide +kernel)
  simp only [Bool.and_eq_true] at h
  obtain ⟨h1, h2⟩ := h
  obtain ⟨y, e1, h1⟩ := Outcome.exists_of_is h1
  obtain ⟨⟨w', s, o⟩, e2, h2⟩ := Outcome.exists_of_is h2
  simp only [Bool.and_eq_true, beq_iff_eq] at h2
  obtain ⟨h2, h3⟩ := h2
  obtain ⟨z, e3, h3⟩ := Outcome.exists_of_is h3
  simp only [decide_eq_true_eq] at h1 h3
  subst h2
  refine ⟨x.1, w', _, o, [.set .boolean (some [1]) 1 (some [true]) 1, .get .float64 (some [6]) 1 (some [.fin 9]) 1],
    Ex.reach_runME3 e, rfl, e2, ?_⟩
  rw [e1, e3]
  intro h
  simp only [Outcome.shown, Outcome.ret.injEq] at h
  rw [h, h3] at h1
  revert h1
  decide +kernel

end FMI3
end Verif
