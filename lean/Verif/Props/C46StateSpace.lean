import Verif.Props.C46
import Verif.Props.C76

/-!
# C46 for StateSpace: the trajectory does not depend on the use of Event Mode
-/

namespace Verif
open FMI3 (Handles ReachableCS Prepared SameValues)

/-- **C46** for the StateSpace FMU with the 3 inputs, states and outputs that an instance has after its initialisation, in exact arithmetic: let two FMI 3.0
instances, each with or without Event Mode and early return, show the same time and the same linear system after their initialisation, and let both be simulated
by importers that handle every event that `fmi3DoStep` reports, each with its own communication step sizes. If they then show the same time, they show the same
dimensions, matrices, inputs, outputs, states and derivatives. -/
theorem C46_stateSpace {emu emu' era era' p p' : Bool} {w₁ w₂ w₁' w₂' : FMI3.World XRat (StateSpace.Data XRat)}
    (h : Handles StateSpace.model (ReachableCS StateSpace.model emu era) p w₁ w₂)
    (h' : Handles StateSpace.model (ReachableCS StateSpace.model emu' era') p' w₁' w₂') {t₀ : Rat} {s : LinearSystem}
    (ht : FMI3.Reads StateSpace.model w₁ .float64 0 (.fin t₀)) (ht' : FMI3.Reads StateSpace.model w₁' .float64 0 (.fin t₀))
    (hs : FMI3.ReadsSystem w₁ s) (hs' : FMI3.ReadsSystem w₁' s) (hend : SameValues [(.float64, 0)] StateSpace.model w₂ w₂') :
    ∃ s', FMI3.ReadsSystem w₂ s' ∧ FMI3.ReadsSystem w₂' s' := by
  obtain ⟨w, f₁, o, fuel, ops, outs, hw, e₁, hops, e₂, hok, -, hb⟩ := h
  obtain ⟨w', f₁', o', fuel', ops', outs', hw', e₁', hops', e₂', hok', -, hb'⟩ := h'
  obtain ⟨n, r, k⟩ := FMI3.C76 hw.proper e₁ ht hs hops e₂ hok hb
  obtain ⟨n', r', k'⟩ := FMI3.C76 hw'.proper e₁' ht' hs' hops' e₂' hok' hb'
  obtain ⟨v, hv, hv'⟩ := hend .float64 0 (by simp)
  have hn : n = n' := FMI3.steps_eq (h := 1 / 1000) (by norm_num) ((r.unique hv).trans (hv'.unique r'))
  subst hn
  exact ⟨_, k, k'⟩

/-! Non-vacuity -/

/-- The instance holds the start values of the system at this time. -/
def C46.starts (w : FMI3.World XRat (StateSpace.Data XRat)) (t : Rat) : Bool :=
  let d := w.inst.mv.data
  decide (w.inst.ctx.time = .fin t ∧ w.inst.ctx.state ∈ FMI3.Spec.allowedIn (.get .float64) ∧ d.m = 3 ∧ d.n = 3 ∧ d.r = 3 ∧
    (∀ i j : Fin 3, d.A i j = .fin (FMI3.unit i j)) ∧ (∀ i j : Fin 3, d.B i j = .fin (FMI3.unit i j)) ∧
    (∀ i j : Fin 3, d.C i j = .fin (FMI3.unit i j)) ∧ (∀ i j : Fin 3, d.D i j = .fin (FMI3.unit i j)) ∧
    (∀ i : Fin 3, d.u i = .fin (FMI3.startSystem.u i)) ∧ ∀ i : Fin 3, d.x i = .fin (FMI3.startSystem.x i))

theorem C46.starts_reads {w : FMI3.World XRat (StateSpace.Data XRat)} {t : Rat} (h : C46.starts w t = true) :
    FMI3.Reads StateSpace.model w .float64 0 (.fin t) ∧ FMI3.ReadsSystem w FMI3.startSystem := by
  obtain ⟨h0, h1, h2, h3, h4, h5, h6, h7, h8, h9, h10⟩ := of_decide_eq_true h
  have hh : StateSpace.Holds w.inst.mv.data FMI3.startSystem := ⟨⟨h2, h3, h4⟩, h5, h6, h7, h8, h9, h10⟩
  exact ⟨h0 ▸ StateSpace.reads_time (StateSpace.inBounds_of hh.dims) h1, hh.reads rfl h1⟩

/-- With Event Mode, in which the importer updates the discrete states behind the initialisation and enters Event Mode between two communication steps. -/
example : ∃ w₁ w₂ : FMI3.World XRat (StateSpace.Data XRat), Handles StateSpace.model (Prepared StateSpace.model true true) true w₁ w₂ ∧
    FMI3.Reads StateSpace.model w₁ .float64 0 (.fin 2) ∧ FMI3.ReadsSystem w₁ FMI3.startSystem ∧ w₂.inst.ctx.time = .fin (2003 / 1000) := by
  obtain ⟨w₁, w₂, h, hq⟩ := C46.handles (m := StateSpace.model) (emu := true) (era := true) (p := true)
    (pre := [.enterInitializationMode (.fin 2) false (.fin 0)])
    (ops := [C46.upd, .enterStepMode, .doStep (.fin 2) (.fin (1 / 1000)) Ex.stepOut, .enterEventMode, .enterStepMode,
      .doStep (.fin (2001 / 1000)) (.fin (2 / 1000)) Ex.stepOut])
    (q := fun w₁ w₂ => C46.starts w₁ 2 && decide (w₂.inst.ctx.time = .fin (2003 / 1000)))
    (by decide +kernel) (by simp [FMI3.Op.fn]) (by simp [C46.upd, FMI3.Interferes, FMI3.Op.fn]) (by decide)
  simp only [Bool.and_eq_true, decide_eq_true_eq] at hq
  obtain ⟨h1, h2⟩ := C46.starts_reads hq.1
  exact ⟨w₁, w₂, h, h1, h2, hq.2⟩

/-- Without Event Mode, to the same time in one communication step. -/
example : ∃ w₁ w₂ : FMI3.World XRat (StateSpace.Data XRat), Handles StateSpace.model (Prepared StateSpace.model false false) false w₁ w₂ ∧
    FMI3.Reads StateSpace.model w₁ .float64 0 (.fin 2) ∧ FMI3.ReadsSystem w₁ FMI3.startSystem ∧ w₂.inst.ctx.time = .fin (2003 / 1000) := by
  obtain ⟨w₁, w₂, h, hq⟩ := C46.handles (m := StateSpace.model) (emu := false) (era := false) (p := false)
    (pre := [.enterInitializationMode (.fin 2) false (.fin 0)])
    (ops := [.doStep (.fin 2) (.fin (3 / 1000)) Ex.stepOut])
    (q := fun w₁ w₂ => C46.starts w₁ 2 && decide (w₂.inst.ctx.time = .fin (2003 / 1000)))
    (by decide +kernel) (by simp [FMI3.Op.fn]) (by simp [FMI3.Interferes, FMI3.Op.fn]) (by decide)
  simp only [Bool.and_eq_true, decide_eq_true_eq] at hq
  obtain ⟨h1, h2⟩ := C46.starts_reads hq.1
  exact ⟨w₁, w₂, h, h1, h2, hq.2⟩

end Verif
