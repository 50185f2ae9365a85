import Verif.Lemmas.ModelEff
import Verif.Lemmas.Modes2
import Verif.Lemmas.Modes3
import Verif.Spec.Observe

/-!
# What reading a variable gives

`Model.Calc` and `Model.View` describe `calculateValues` and the getters of an FMU by plain
functions; `view_real` etc. say what the importer then reads.
-/

set_option linter.unusedSectionVars false

namespace Verif
variable {F D : Type} {m : Model F D} {upd : D → D}

/-- `calculateValues` always succeeds and updates the data by `upd`. -/
def Model.Calc (m : Model F D) (upd : D → D) : Prop :=
  ∀ ctx mv, m.calculateValues ctx mv =
    .ret ({ mv with data := upd mv.data, isDirtyValues := false }, .OK, ())

/-- Reading the scalar variable `vr` gives `val`. -/
def Model.View (m : Model F D) (upd : D → D) (t : VType) (vr : Nat) (val : F → D → t.Val F) : Prop :=
  ∀ ctx mv l n i, m.get t ctx mv vr (some l) n i =
    putScalar ctx { mv with data := upd mv.data, isDirtyValues := false } (some l) n i
      (val ctx.time (upd mv.data))

theorem Model.View.first {t vr val} (h : m.View upd t vr val) {c : Comp F D} {x : t.Val F} :
    c.lift (m.get t c.ctx c.mv vr (some [x]) 1 0) = .ret
      ({ c with mv := { c.mv with data := upd c.mv.data, isDirtyValues := false } }, .OK,
        (some [val c.ctx.time (upd c.mv.data)], 1)) := by
  rw [h]; rfl

theorem call_OK {α β : Type} {c : Comp F D} {a : α} {stop : α → β} {k} :
    call .OK (.ret (c, .OK, a)) stop k = k c .OK a := rfl

theorem Model.View.loop {t vr val} (h : m.View upd t vr val) {c : Comp F D} {x : t.Val F} :
    getLoop m t (some [vr]) 1 1 0 c .OK (some [x]) 0 = .ret
      ({ c with mv := { c.mv with data := upd c.mv.data, isDirtyValues := false } }, .OK,
        (some [val c.ctx.time (upd c.mv.data)], 1)) := by
  have : Ptr.read (some [vr]) 0 = .ret vr := rfl
  rw [getLoop, this, Outcome.ret_bind, h.first, call_OK]
  rfl

variable [Arith F] [HasInf F]

namespace FMI2

theorem view_getVariables (hc : m.Calc upd) (hu : ∀ d, upd (upd d) = upd d) {t vr val}
    (hv : m.View upd t vr val) (c : Comp F D) (x : t.Val F) :
    getVariables m t (some [vr]) 1 (some [x]) c = .ret
      ({ c with mv := { c.mv with data := upd c.mv.data, isDirtyValues := false } }, .OK,
        some [val c.ctx.time (upd c.mv.data)]) := by
  unfold getVariables refresh
  simp only [assertNonNull, Option.isNone_some, Bool.false_eq_true, if_false,
    Nat.one_ne_zero]
  split
  · rw [hc, Comp.lift, Outcome.ret_bind, call_OK, hv.loop]
    simp only [Comp.setDirty, Outcome.ret_bind, hu]
  · rw [hv.loop]; rfl

theorem view_real (hc : m.Calc upd) (hu : ∀ d, upd (upd d) = upd d) {vr val}
    (hv : m.View upd .float64 vr val) {w : World F D}
    (hs : w.inst.ctx.state ∈ Spec.allowedIn .getReal) :
    ReadsReal m w vr (val w.inst.ctx.time (upd w.inst.mv.data)) := by
  intro fuel x
  refine ⟨{ w with inst := { w.inst with mv := { w.inst.mv with
    data := upd w.inst.mv.data, isDirtyValues := false } } }, ?_⟩
  simp only [step, World.run, getReal, begin, beginFunction]
  have ha : allowed w.inst.ctx MASK_GetReal = true := (allowed_fn w.inst.ctx .getReal).2 hs
  rw [if_pos ha]
  rw [view_getVariables hc hu hv w.inst x]
  rfl

theorem view_integer (hc : m.Calc upd) (hu : ∀ d, upd (upd d) = upd d) {vr val}
    (hv : m.View upd .int32 vr val) {w : World F D}
    (hs : w.inst.ctx.state ∈ Spec.allowedIn .getInteger) :
    ReadsInteger m w vr (val w.inst.ctx.time (upd w.inst.mv.data)) := by
  intro fuel x
  refine ⟨{ w with inst := { w.inst with mv := { w.inst.mv with
    data := upd w.inst.mv.data, isDirtyValues := false } } }, ?_⟩
  simp only [step, World.run, getInteger, begin, beginFunction]
  have ha : allowed w.inst.ctx MASK_GetReal = true := (allowed_fn w.inst.ctx .getInteger).2 hs
  rw [if_pos ha]
  rw [view_getVariables hc hu hv w.inst x]
  rfl

theorem ReadsReal.unique {w : World F D} {vr : Nat} {a b : F} (h1 : ReadsReal m w vr a)
    (h2 : ReadsReal m w vr b) : a = b := by
  obtain ⟨w1, e1⟩ := h1 0 (Arith.lit 0)
  obtain ⟨w2, e2⟩ := h2 0 (Arith.lit 0)
  rw [e1] at e2
  cases e2
  rfl

theorem ReadsInteger.unique {w : World F D} {vr : Nat} {a b : Int} (h1 : ReadsInteger m w vr a)
    (h2 : ReadsInteger m w vr b) : a = b := by
  obtain ⟨w1, e1⟩ := h1 0 0
  obtain ⟨w2, e2⟩ := h2 0 0
  rw [e1] at e2
  cases e2
  rfl

end FMI2

namespace FMI3

theorem view (hc : m.Calc upd) (hu : ∀ d, upd (upd d) = upd d) {t vr val}
    (hv : m.View upd t vr val) {w : World F D}
    (hs : w.inst.ctx.state ∈ Spec.allowedIn (.get t)) :
    Reads m w t vr (val w.inst.ctx.time (upd w.inst.mv.data)) := by
  intro fuel x
  refine ⟨{ w with inst := { w.inst with mv := { w.inst.mv with
    data := upd w.inst.mv.data, isDirtyValues := false } } }, ?_⟩
  simp only [step, World.run, getVars, begin, beginFunction]
  have ha : allowed w.inst.ctx MASK_Get = true := (allowed_fn w.inst.ctx (.get t)).2 hs
  rw [if_pos ha]
  simp only [refresh, assertNonNull, Option.isNone_some, Bool.false_eq_true, if_false,
    Nat.one_ne_zero, gt_iff_lt, Nat.zero_lt_one, if_true]
  split
  · rw [hc, Comp.lift, Outcome.ret_bind, call_OK, hv.loop]
    simp [Comp.setDirty, Outcome.ret_bind, hu]
  · rw [hv.loop]; simp

theorem Reads.unique {w : World F D} {t : VType} {vr : Nat} {a b : t.Val F} (h1 : Reads m w t vr a)
    (h2 : Reads m w t vr b) : a = b := by
  obtain ⟨w1, e1⟩ := h1 0 a
  obtain ⟨w2, e2⟩ := h2 0 a
  rw [e1] at e2
  cases e2
  rfl

end FMI3
end Verif
