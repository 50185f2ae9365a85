import Verif.Props.C17
import Verif.Props.C70

/-!
# C70: the dependencies of the event indicators

The only event indicators with dependencies are those of Roberts: the first depends on `y1` and the second on `y3`, both with
a constant factor (Roberts/FMI3.xml 57-58 and Roberts/fmi-ls-dae.xml 32-39).
-/

set_option linter.unusedSectionVars false

namespace Verif
variable {F : Type} [Arith F] [HasInf F]

/-- The values of the variables of Roberts. -/
theorem C70.reported (w : FMI3.World F (Roberts.Data F)) : ∃ v : Values F, FMI3.Reported Roberts.model w v := by
  open Classical in
  refine ⟨fun t r => if h : ∃ x, FMI3.Reads Roberts.model w t r x then Classical.choose h else t.zero, fun t r u h => ?_⟩
  have hx : ∃ x, FMI3.Reads Roberts.model w t r x := ⟨u, h⟩
  simp only [dif_pos hx]
  exact FMI3.Reads.unique (Classical.choose_spec hx) h

theorem C70.readable {w : FMI3.World F (Roberts.Data F)} (h : w.inst.ctx.state ∈ FMI3.Spec.allowedIn .getEventIndicators) :
    w.inst.ctx.state ∈ FMI3.Spec.allowedIn (.get .float64) := by
  revert h; cases w.inst.ctx.state <;> decide

/-- **C70**: `fmi3GetEventIndicators` succeeds on both instances of Roberts, and each event indicator is the same in both if the
variable that the model description lists for it has the same value in both, with any arithmetic. -/
theorem FMI3.C70_indicators {w w' : FMI3.World F (Roberts.Data F)} (hs : w.inst.ctx.state ∈ FMI3.Spec.allowedIn .getEventIndicators)
    (hs' : w'.inst.ctx.state ∈ FMI3.Spec.allowedIn .getEventIndicators) (fuel : Nat) {p p' : List F} (hp : p.length = 2)
    (hp' : p'.length = 2) : ∃ (w₁ w₁' : FMI3.World F (Roberts.Data F)) (g1 g2 g1' g2' : F),
      FMI3.step Roberts.model fuel w (.getEventIndicators (some p) 2) = .ret (w₁, .OK, .reals (some [g1, g2])) ∧
      FMI3.step Roberts.model fuel w' (.getEventIndicators (some p') 2) = .ret (w₁', .OK, .reals (some [g1', g2'])) ∧
      (FMI3.Equal Roberts.model w w' [real 2] → g1 = g1') ∧ (FMI3.Equal Roberts.model w w' [real 6] → g2 = g2') := by
  obtain ⟨v, hv⟩ := C70.reported w
  obtain ⟨v', hv'⟩ := C70.reported w'
  obtain ⟨w₁, e⟩ := (FMI3.C17_fmi3_vectors (.roberts (F := F)) (w := w) fuel).2.2 p v hv hp hs
  obtain ⟨w₁', e'⟩ := (FMI3.C17_fmi3_vectors (.roberts (F := F)) (w := w') fuel).2.2 p' v' hv' hp' hs'
  refine ⟨w₁, w₁', _, _, _, _, e, e', fun h => ?_, fun h => ?_⟩
  · obtain ⟨x, h1, h2⟩ := h _ (.head _)
    rw [show v .float64 2 = x from hv _ _ _ h1, show v' .float64 2 = x from hv' _ _ _ h2]
  · obtain ⟨x, h1, h2⟩ := h _ (.head _)
    rw [show v .float64 6 = x from hv _ _ _ h1, show v' .float64 6 = x from hv' _ _ _ h2]

/-- **C70**, exact arithmetic: the factors are the constant 1. -/
theorem FMI3.C70_indicators_constant {w : FMI3.World XRat (Roberts.Data XRat)}
    (hs : w.inst.ctx.state ∈ FMI3.Spec.allowedIn .getEventIndicators) (fuel : Nat) {p : List XRat} (hp : p.length = 2) {a b : Rat}
    (ha : FMI3.Reads Roberts.model w .float64 2 (.fin a)) (hb : FMI3.Reads Roberts.model w .float64 6 (.fin b)) :
    ∃ w₁, FMI3.step Roberts.model fuel w (.getEventIndicators (some p) 2) =
      .ret (w₁, .OK, .reals (some [.fin (a - 1 / 10000), .fin (b - 1 / 100)])) := by
  obtain ⟨v, hv⟩ := C70.reported w
  obtain ⟨w₁, e⟩ := (FMI3.C17_fmi3_vectors (.roberts (F := XRat)) (w := w) fuel).2.2 p v hv hp hs
  refine ⟨w₁, e.trans ?_⟩
  rw [hv _ _ _ ha, hv _ _ _ hb]
  rfl

/-- Non-vacuity: two instances in Initialization Mode with the same `y1`, but different `y2` and therefore different `y3`. -/
example : ∃ w w' : FMI3.World XRat _, w.inst.ctx.state ∈ FMI3.Spec.allowedIn .getEventIndicators ∧
    w'.inst.ctx.state ∈ FMI3.Spec.allowedIn .getEventIndicators ∧ FMI3.Equal Roberts.model w w' [real 2] ∧
    ¬ FMI3.Equal Roberts.model w w' [real 6] := by
  have new : ∀ b : Rat, (Ex.runME3 (Roberts.model : Model XRat _)
      [.set .float64 (some [2, 4]) 2 (some [.fin (1 / 2), .fin b]) 2, .enterInitializationMode (.fin 0) false (.fin 0)]).is (fun x =>
        decide (x.1.inst.ctx.state = .initializationMode) && decide (x.1.inst.mv.data.dae = false ∧ x.1.inst.mv.data.y1 = .fin (1 / 2) ∧
          x.1.inst.mv.data.y2 = .fin b)) →
      ∃ w : FMI3.World XRat _, w.inst.ctx.state ∈ FMI3.Spec.allowedIn .getEventIndicators ∧
        FMI3.Reads Roberts.model w .float64 2 (.fin (1 / 2)) ∧ FMI3.Reads Roberts.model w .float64 6 (.fin (1 - 1 / 2 - b)) := by
    intro b h
    obtain ⟨⟨w, outs⟩, e, h⟩ := Outcome.exists_of_is h
    simp only [Bool.and_eq_true, decide_eq_true_eq] at h
    obtain ⟨hs, hd, ha, hb⟩ := h
    have hs1 : w.inst.ctx.state ∈ FMI3.Spec.allowedIn .getEventIndicators := by rw [hs]; decide
    have h2 := FMI3.reads_lens Lens.roberts (t := .float64) (r := 2) (by simp) (C70.readable hs1)
    have h6 := FMI3.reads_lens Lens.roberts (t := .float64) (r := 6) (by simp) (C70.readable hs1)
    simp only [Lens.roberts, Lens.robertsY3, hd, ha, hb, XRat.lit_eq, XRat.sub_fin] at h2 h6
    exact ⟨w, hs1, h2, h6⟩
  obtain ⟨w, hs, h2, h6⟩ := new 0 (by decide +kernel)
  obtain ⟨w', hs', h2', h6'⟩ := new (1 / 4) (by decide +kernel)
  refine ⟨w, w', hs, hs', fun p hp => ?_, fun h => ?_⟩
  · rw [List.mem_singleton.1 hp]; exact ⟨_, h2, h2'⟩
  · obtain ⟨x, e1, e2⟩ := h _ (.head _)
    have := (FMI3.Reads.unique h6 e1).trans (FMI3.Reads.unique h6' e2).symm
    simp only [XRat.fin.injEq] at this
    norm_num at this

end Verif
