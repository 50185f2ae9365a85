import Verif.Lemmas.StateSpaceRun
import Verif.Props.C69

/-! # Reading the time and the dimensions of StateSpace -/

set_option linter.unusedSectionVars false

namespace Verif.StateSpace
variable {F : Type} [Arith F] [HasInf F]

theorem reads_time {w : FMI3.World F (Data F)} (hb : inBounds w.inst.mv.data = true)
    (hs : w.inst.ctx.state ∈ FMI3.Spec.allowedIn (.get .float64)) : FMI3.Reads model w .float64 0 w.inst.ctx.time := by
  intro fuel x
  have ha : FMI3.allowed w.inst.ctx FMI3.MASK_Get = true := (FMI3.allowed_fn w.inst.ctx (.get .float64)).2 hs
  have fin : ∀ c : Comp F (Data F), inBounds c.mv.data = true → c.ctx.time = w.inst.ctx.time →
      ∃ c', (getLoop model .float64 (some [0]) 1 1 0 c .OK (some [x]) 0 >>- fun (c, st, (values, index)) =>
        if st = .Discard ∨ st = .Error ∨ st = .Fatal then .ret (c, st, values)
        else if VType.float64 ≠ .binary ∧ index ≠ 1 then FMI3.fail c "Expected nValues = %zu but was %zu." values
        else .ret (c, st, values)) = .ret (c', .OK, some [w.inst.ctx.time]) := by
    intro c hc he
    have hg : getFloat64 c.ctx c.mv 0 (some [x]) 1 0 = .ret (calcValues c.mv, .OK, (some [c.ctx.time], 1)) := by
      simp only [getFloat64, assertNotNull, Option.isNone_some, Bool.false_eq_true, if_false, calculateValues, guarded, hc, if_true, Outcome.ret_bind]
      rfl
    have e : getLoop model .float64 (some [0]) 1 1 0 c .OK (some [x]) 0 =
        .ret ({ c with mv := calcValues c.mv }, .OK, (some [w.inst.ctx.time], 1)) := by
      simp only [getLoop, Ptr.read, List.getElem?_cons_zero, Outcome.ret_bind]
      show call .OK (c.lift (getFloat64 c.ctx c.mv 0 (some [x]) 1 0)) id _ = _
      rw [hg, he]; rfl
    exact ⟨{ c with mv := calcValues c.mv }, by rw [e]; simp⟩
  have main : ∃ c', FMI3.getVars model .float64 w.inst (some [0]) 1 (some [x]) 1 = .ret (c', .OK, some [w.inst.ctx.time]) := by
    simp only [FMI3.getVars]
    rw [FMI3.begin_ok (mask := FMI3.MASK_Get) ha]
    simp only [Nat.one_ne_zero, if_false, assertNonNull, Option.isNone_some, Bool.false_eq_true, ite_self, refresh]
    split
    · obtain ⟨c', e⟩ := fin (({ w.inst with mv := calcValues w.inst.mv } : Comp F (Data F)).setDirty false) hb rfl
      refine ⟨c', ?_⟩
      have : (w.inst.lift ((model (F := F)).calculateValues w.inst.ctx w.inst.mv)) =
          .ret ({ w.inst with mv := calcValues w.inst.mv }, .OK, ()) := by
        simp only [Comp.lift, model, calculateValues, guarded, hb, if_true, Outcome.ret_bind]
      rw [this]
      exact e
    · exact fin w.inst hb rfl
  obtain ⟨c', e⟩ := main
  exact ⟨_, by simp only [FMI3.step, FMI3.World.run]; rw [e]; rfl⟩

theorem reads_three {w : FMI3.World F (Data F)} (hd : dims3 w.inst.mv.data)
    (hs : w.inst.ctx.state ∈ FMI3.Spec.allowedIn (.get .uint64)) :
    FMI3.Reads model w .uint64 1 (3 : Int) ∧ FMI3.Reads model w .uint64 2 (3 : Int) ∧ FMI3.Reads model w .uint64 3 (3 : Int) := by
  have hb := inBounds_of hd
  obtain ⟨h1, h2, h3⟩ := hd
  refine ⟨?_, ?_, ?_⟩
  · have := reads_param (vr := 1) (f := Data.m) hb hs (fun _ => rfl) (fun _ _ _ => rfl); rwa [h1] at this
  · have := reads_param (vr := 2) (f := Data.n) hb hs (fun _ => rfl) (fun _ _ _ => rfl); rwa [h2] at this
  · have := reads_param (vr := 3) (f := Data.r) hb hs (fun _ => rfl) (fun _ _ _ => rfl); rwa [h3] at this

end Verif.StateSpace
