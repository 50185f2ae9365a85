import Verif.Spec.Shows
import Verif.Lemmas.LensReads

/-! # What can be read, in terms of the data of the instance -/

set_option linter.unusedSectionVars false

namespace Verif
variable {F D : Type} [Arith F] [HasInf F] {m : Model F D} {R : List (VType × Nat)}

theorem FMI2.shows_real (l : Lens m R) {r : Nat} (h : (.float64, r) ∈ R) (w : World F D) :
    ShowsReal m w r (l.val .float64 r w.inst.ctx.time w.inst.mv.data) := by
  intro fuel x w' o e
  by_cases hs : w.inst.ctx.state ∈ Spec.allowedIn .getReal
  · obtain ⟨w1, e1⟩ := reads_lens l h (.inl rfl) hs fuel x
    rw [e1] at e
    cases e; rfl
  · obtain ⟨w1, e1, -⟩ := refused m fuel w (.getReal (some [r]) 1 (some [x])) hs
    rw [e1] at e
    cases e

theorem FMI2.shows_int (l : Lens m R) {r : Nat} (h : (.int32, r) ∈ R) (w : World F D) :
    ShowsInteger m w r (l.val .int32 r w.inst.ctx.time w.inst.mv.data) := by
  intro fuel x w' o e
  by_cases hs : w.inst.ctx.state ∈ Spec.allowedIn .getReal
  · obtain ⟨w1, e1⟩ := reads_lens l h (.inr (.inl rfl)) hs fuel x
    rw [e1] at e
    cases e; rfl
  · obtain ⟨w1, e1, -⟩ := refused m fuel w (.getInteger (some [r]) 1 (some [x])) hs
    rw [e1] at e
    cases e

theorem FMI3.shows (l : Lens m R) {t : VType} {r : Nat} (h : (t, r) ∈ R) (w : World F D) :
    Shows m w t r (l.val t r w.inst.ctx.time w.inst.mv.data) := by
  intro fuel x w' o e
  by_cases hs : w.inst.ctx.state ∈ Spec.allowedIn (.get t)
  · obtain ⟨w1, e1⟩ := reads_lens l h hs fuel x
    rw [e1] at e
    cases e; rfl
  · obtain ⟨w1, e1, -⟩ := refused m fuel w (.get t (some [r]) 1 (some [x]) 1) (by simp) hs
    rw [e1] at e
    cases e

end Verif
