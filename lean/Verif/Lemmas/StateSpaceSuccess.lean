import Verif.Lemmas.Success
import Verif.Lemmas.StateSpaceLegal
import Verif.Lemmas.StateSpaceRun

/-! # Legal calls of StateSpace return -/

set_option linter.unusedSectionVars false

namespace Verif.StateSpace
variable {F : Type} [Arith F] [HasInf F]

theorem count_pos {t : VType} {r : Nat} {mode : Mode} (h : settable mode t r) : 1 ≤ count t r := by
  obtain ⟨rfl, h⟩ := h
  have : r = 4 ∨ r = 5 ∨ r = 6 ∨ r = 7 ∨ r = 8 ∨ r = 9 ∨ r = 11 := by omega
  rcases this with rfl | rfl | rfl | rfl | rfl | rfl | rfl <;> decide

theorem length_le_count {t : VType} {mode : Mode} : ∀ {rs : List Nat}, (∀ r ∈ rs, settable mode t r) → rs.length ≤ (rs.map (count t)).sum
  | [], _ => Nat.zero_le _
  | r :: rs, h => by
    have h1 := count_pos (h r (by simp))
    have h2 := length_le_count (rs := rs) fun r hr => h r (List.mem_cons_of_mem _ hr)
    simp only [List.length_cons, List.map_cons, List.sum_cons]
    omega

theorem ArgsStateSpace.enough {m : Model F (Data F)} {w : FMI3.World F (Data F)} {op : FMI3.Op F} (h : FMI3.ArgsStateSpace m w op) :
    FMI3.EnoughValues op := by
  cases op <;> try exact trivial
  rcases h with h | ⟨rs, rfl, -, h1, rfl, -⟩
  · subst h; exact Nat.zero_le _
  · exact length_le_count h1

theorem legal_ret {t : IType} {w : FMI3.World F (Data F)} (hw : FMI3.Reachable model t w) {op : FMI3.Op F} (hd : op.fn ≠ .doStep)
    (wf : FMI3.WellFormed w op) (he : FMI3.EnoughValues op) (fuel : Nat) : ∃ x, FMI3.step model fuel w op = .ret x :=
  Outcome.exists_ret (FMI3.step_ends (RefFMU3.stateSpace (F := F)).endsAll hd fuel w) fun e => FMI3.C45_stateSpace_partial hw wf he ⟨fuel, e⟩

/-- A communication step of StateSpace that fits returns `fmi3OK`. -/
theorem doStep_legal {t : IType} {w : FMI3.World XRat (Data XRat)} (hw : FMI3.ReachableProper model t w)
    (hs : w.inst.ctx.state = .stepMode) {a d s t₀ : Rat} {out : FMI3.StepOut XRat} (wf : FMI3.WellFormed w (.doStep (.fin a) (.fin d) out))
    (ha : w.inst.clock.Accepts (.fin a) (.fin d)) (hT : Ticks (1 / 1000) s t₀ w.inst) {K fuel : Nat}
    (hK : 2 * |a + d| + 1 ≤ t₀ + K * (1 / 1000)) (hb : w.inst.nSteps + K < 2 ^ 64) (hf : K < fuel) :
    ∃ w' o, FMI3.step model fuel w (.doStep (.fin a) (.fin d) out) = .ret (w', .OK, o) := by
  have hok := (RefFMU3.stateSpace (F := XRat)).eff.okOrError
  have hh : (model : Model XRat _).h = .fin (1 / 1000) := rfl
  have key : (FMI3.doStepLoop model (.fin (a + d)) out fuel w.inst .OK false).Ends :=
    FMI3.loop_ends RefFMU3.stateSpace.ends hok hh (by decide +kernel) hT hb hK hf
  have hal : FMI3.allowed w.inst.ctx FMI3.MASK_DoStep = true := (FMI3.allowed_fn _ .doStep).2 (by rw [hs]; decide)
  obtain ⟨k1, k2, k3⟩ := ha.checks
  have hends : (FMI3.step model fuel w (.doStep (.fin a) (.fin d) out)).Ends := by
    simp only [FMI3.step, FMI3.doStep, FMI3.begin, beginFunction]
    rw [if_pos hal, if_neg (by simpa [Comp.clock] using k1), if_neg (by simpa using k2), if_neg (by simpa [Comp.clock] using k3)]
    exact .bind (.ite .ub key) fun _ => .ret _
  obtain ⟨⟨w', st, o⟩, e⟩ := Outcome.exists_ret hends fun e => FMI3.C45_stateSpace_partial (hw.reachable hok) wf trivial ⟨fuel, e⟩
  suffices h : st = .OK by subst h; exact ⟨w', o, e⟩
  simp only [FMI3.step, FMI3.World.run, FMI3.doStep, FMI3.begin, beginFunction] at e
  obtain ⟨⟨c', s', u⟩, e1, e⟩ := Outcome.bind_eq_ret.1 e
  cases e
  rw [if_pos hal, if_neg (by simpa [Comp.clock] using k1), if_neg (by simpa using k2),
    if_neg (by simpa [Comp.clock] using k3)] at e1
  split at e1
  · cases e1
  · obtain ⟨n, c1, s1, ehn, r, -, hl, hf⟩ := FMI3.Loop.of_eq hok e1
    obtain ⟨rfl, -⟩ := hl.armed rfl (hw.armed hs)
    unfold FMI3.finish FMI3.doStepEnd at hf
    rw [if_pos rfl] at hf
    split at hf
    · cases hf
    · cases hf; rfl

end Verif.StateSpace
