import Verif.Lemmas.StateSpaceRead
import Verif.Props.C37
import Verif.Lemmas.ExReach

/-!
# C36, C37: StateSpace as long as no call has failed

A structural parameter cannot be set successfully (`C36_violated`). Hence there are three inputs, states and outputs as
long as no call has failed, and then the state equation holds and every array is read back as it was set.
-/

set_option linter.unusedSectionVars false

namespace Verif.FMI3
variable {F : Type} [Arith F] [HasInf F] {it : IType} {w : World F (StateSpace.Data F)}

/-- **C36**: whatever calls were made, there are three inputs, states and outputs, unless the instance is in the mode Terminated, into
which a call that fails leads. -/
theorem C36_three (hw : Reachable StateSpace.model it w) (hs : w.inst.ctx.state ≠ .terminated) :
    Reads StateSpace.model w .uint64 1 (3 : Int) ∧ Reads StateSpace.model w .uint64 2 (3 : Int) ∧
      Reads StateSpace.model w .uint64 3 (3 : Int) :=
  StateSpace.reads_three ((StateSpace.Dim.reachable hw).resolve_left hs) (hw.readable RefFMU3.stateSpace.eff.okOrError)

/-- **C37**, states: `der(x) = A x + B u` for the values as reported, whatever calls were made, unless the instance is in the mode
Terminated. -/
theorem C37_state (hw : Reachable StateSpace.model it w) (hs : w.inst.ctx.state ≠ .terminated) {A B x u der : List F}
    (lA : A.length = 9) (lB : B.length = 9) (lx : x.length = 3) (lu : u.length = 3) (ld : der.length = 3)
    (hA : ReadsArray StateSpace.model w 4 A) (hB : ReadsArray StateSpace.model w 5 B)
    (hx : ReadsArray StateSpace.model w 11 x) (hu : ReadsArray StateSpace.model w 9 u) (hd : ReadsArray StateSpace.model w 12 der)
    (i : Nat) (hi : i < 3) :
    der.getD i (Arith.lit 0) = addRow (addRow (Arith.lit 0) 3 A x i) 3 B u i := by
  obtain ⟨h1, h2, h3⟩ := C36_three hw hs
  exact C37_state_partial (nu := 3) (nx := 3) (ny := 3) hw h1 h2 h3 rfl rfl lA lB lx lu ld hA hB hx hu hd i hi

/-- **C37**, read-back: a matrix or vector that is set is read back unchanged, whatever calls were made before, unless the instance is in the
mode Terminated. -/
theorem C37_readback (hw : Reachable StateSpace.model it w) (hs : w.inst.ctx.state ≠ .terminated)
    (hm : w.inst.ctx.state ∈ Spec.allowedIn (.set .float64)) {vr : Nat} (hv : Settable w vr) {l : List F}
    (hl : l.length = StateSpace.elements 3 3 3 vr) (fuel : Nat) :
    ∃ w', step StateSpace.model fuel w (.set .float64 (some [vr]) 1 (some l) l.length) = .ret (w', .OK, .unit) ∧
      ReadsArray StateSpace.model w' vr l := by
  obtain ⟨h1, h2, h3⟩ := C36_three hw hs
  exact C37_readback_partial (nu := 3) (nx := 3) (ny := 3) hw h1 h2 h3 hm hv (fun _ => rfl) hl fuel

/-- Non-vacuity: after `B` and `u` were set there is a world that meets the hypotheses of `C37_state`; the derivative is not 0. -/
example : ∃ w : World XRat (StateSpace.Data XRat), Reachable StateSpace.model .modelExchange w ∧ w.inst.ctx.state ≠ .terminated ∧
    ReadsArray StateSpace.model w 12 ([10, 20, 60].map .fin) := by
  obtain ⟨w, outs, e, h⟩ : ∃ w outs, Ex.runME3 StateSpace.model (Ex.init3 ++ [.set .float64 (some [5, 9]) 2
      (some ([1, 0, 0, 0, 1, 0, 0, 0, 2, 10, 20, 30].map .fin)) 12]) = .ret (w, outs) ∧ w.inst.ctx.state = .eventMode ∧
      StateSpace.block (StateSpace.upd w.inst.mv.data) 12 = [10, 20, 60].map .fin := by
    obtain ⟨⟨w, outs⟩, e, h⟩ := Outcome.exists_of_is (r := Ex.runME3 StateSpace.model (Ex.init3 ++ [.set .float64 (some [5, 9]) 2
      (some ([1, 0, 0, 0, 1, 0, 0, 0, 2, 10, 20, 30].map .fin)) 12]))
      (p := fun x => decide (x.1.inst.ctx.state = .eventMode) && (StateSpace.block (StateSpace.upd x.1.inst.mv.data) 12 == [10, 20, 60].map .fin))
      (by decide +kernel)
    simp only [Bool.and_eq_true, decide_eq_true_eq, beq_iff_eq] at h
    exact ⟨w, outs, e, h⟩
  have hw := Ex.reach_runME3 e
  refine ⟨w, hw, by simp [h.1], ?_⟩
  have hd := (StateSpace.Dim.reachable hw).resolve_left (by simp [h.1])
  have := StateSpace.reads_block (vr := 12) (StateSpace.inBounds_of hd) (hw.readable RefFMU3.stateSpace.eff.okOrError) (by decide) (by decide)
  rwa [h.2] at this

end Verif.FMI3
