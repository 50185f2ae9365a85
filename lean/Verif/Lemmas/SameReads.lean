import Verif.Lemmas.Sequence
import Verif.Lemmas.Ready
import Verif.Spec.SameReads
import Verif.Props.C05
import Verif.Lemmas.Fuel
import Verif.Lemmas.Views

/-! # Reading variables after a refused set -/

set_option linter.unusedSectionVars false

namespace Verif
variable {F D ρ : Type} [Arith F] [HasInf F] {m : Model F D}

/-- The instance after a refusal: a message in the log, Terminated mode. -/
def Comp.refusedSet (c : Comp F D) (tr : List (Ev F)) : Comp F D :=
  ({ c with mv := { c.mv with trace := tr } } : Comp F D).setState .terminated

theorem logError_trace {c : Comp F D} {msg : String} :
    ∃ tr, c.logError msg = { c with mv := { c.mv with trace := tr } } := by
  unfold Comp.logError logError
  split
  · exact ⟨_, rfl⟩
  · exact ⟨c.mv.trace, rfl⟩

theorem begin_refused {al : Bool} {name : String} {t : VType} {c c' : Comp F D} {p : Nat × t.Val F} {s : Status} {u}
    (hu : m.UniSet t p.1) (h : beginFunction al name c () (fun c => wr m t c p) = .ret (c', s, u)) (hs : s ≠ .OK) :
    s = .Error ∧ ∃ tr, c' = c.refusedSet tr := by
  unfold beginFunction at h
  split at h
  · rcases wr_cases hu c p.2 with ⟨mv, e⟩ | ⟨tr, e⟩ | e
    · have := (wr_ok e).symm.trans h; cases this; exact absurd rfl hs
    · have := (wr_err e).symm.trans h; cases this; exact ⟨rfl, tr, rfl⟩
    · have := (wr_ub e).symm.trans h; cases this
  · cases h
    obtain ⟨tr, e⟩ := logError_trace (c := c) (msg := name ++ ": Illegal call sequence.")
    refine ⟨rfl, tr, ?_⟩
    rw [e]; rfl

namespace FMI2

theorem sameReads_refused (hm : RefFMU2 m) {t : IType} {w : World F D} (h : Reachable m t w) (tr : List (Ev F)) :
    SameReads m w { w with inst := w.inst.refusedSet tr } := by
  intro fuel op hop ha w₁ s o e
  obtain ⟨E, hr, hE⟩ := hm.respects
  have hw := h.self hr hE
  have hw' : WRel (SRel m E Tight.full) (fun _ => True) (fun _ => True) w
      { w with inst := { w.inst with mv := { w.inst.mv with trace := tr } } } :=
    ⟨hw.inst.upd (hr.trace _ _ w.inst.mv.trace tr (hE w.inst.mv)), hw.slots, hw.bufs⟩
  have hs := step_rel hr TightOK.full.toTightPre (fuel := fuel) hw' op (fun _ _ => trivial) (fun _ _ => trivial) (fun _ _ => trivial)
  rw [e] at hs
  cases e2 : step m fuel { w with inst := { w.inst with mv := { w.inst.mv with trace := tr } } } op with
  | ub => rw [e2] at hs; cases hs
  | hang => rw [e2] at hs; cases hs
  | ret a =>
    obtain ⟨w2, s2, o2⟩ := a
    rw [e2] at hs
    obtain ⟨-, hs⟩ := hs
    cases hs
    have := C05_getters_keep_working hm (w := { w with inst := { w.inst with mv := { w.inst.mv with trace := tr } } })
      hop ha e2
    exact ⟨_, this⟩

theorem each_stop {fuel : Nat} {mk : ρ → Op F} {ps : List ρ} {w w' : World F D} {s os}
    (h : each m fuel mk w ps = .ret (w', s, os)) (hs : s ≠ .OK) :
    ∃ pre p post w₀ os₀ o, ps = pre ++ p :: post ∧ each m fuel mk w pre = .ret (w₀, .OK, os₀) ∧
      step m fuel w₀ (mk p) = .ret (w', s, o) := by
  induction ps generalizing w os with
  | nil => cases h; exact absurd rfl hs
  | cons p ps ih =>
    simp only [each] at h
    obtain ⟨⟨w1, s1, o1⟩, e1, h⟩ := Outcome.bind_eq_ret.1 h
    simp only at h
    split at h
    · rename_i h1; subst h1
      obtain ⟨⟨w2, s2, l2⟩, e2, h⟩ := Outcome.bind_eq_ret.1 h
      cases h
      obtain ⟨pre, q, post, w₀, os₀, o, rfl, h1, h2⟩ := ih e2
      exact ⟨p :: pre, q, post, w₀, o1 :: os₀, o, rfl, by simp [each, e1, h1], h2⟩
    · cases h
      exact ⟨[], p, ps, w, [], o1, rfl, rfl, e1⟩

theorem each_reachable (hm : OkOrError m) {t : IType} {fuel : Nat} {mk : ρ → Op F} {ps : List ρ} {w w' : World F D} {s os}
    (hw : Reachable m t w) (h : each m fuel mk w ps = .ret (w', s, os)) : Reachable m t w' := by
  induction ps generalizing w os with
  | nil => cases h; exact hw
  | cons p ps ih =>
    simp only [each] at h
    obtain ⟨⟨w1, s1, o1⟩, e1, h⟩ := Outcome.bind_eq_ret.1 h
    simp only at h
    split at h
    · obtain ⟨⟨w2, s2, l2⟩, e2, h⟩ := Outcome.bind_eq_ret.1 h
      cases h
      exact ih (Reachable.call hm hw e1) e2
    · cases h
      exact Reachable.call hm hw e1

end FMI2

namespace FMI3

theorem termOf_getVars (hr : m.ReadsAnyMode) (hm : OkOrError m) {t : VType} {vr n v nv} {c : Comp F D}
    (ha : allowed c.ctx MASK_Get = true) :
    TermOf (getVars m t c vr n v nv) (getVars m t (c.setState .terminated) vr n v nv) := by
  have ha2 : allowed (c.setState .terminated).ctx MASK_Get = true := by
    simp only [allowed, Comp.setState]; decide
  simp only [getVars, begin, beginFunction, ha, ha2, if_true]
  split
  · exact .ret
  · refine .nonNull ?_
    have key : TermOf (refresh m .OK c v fun c st =>
          getLoop m t vr nv n 0 c st v 0 >>- fun (c, st, (values, index)) =>
          if st = .Discard ∨ st = .Error ∨ st = .Fatal then .ret (c, st, values)
          else if t ≠ .binary ∧ index ≠ nv then fail c "Expected nValues = %zu but was %zu." values
          else .ret (c, st, values))
        (refresh m .OK (c.setState .terminated) v fun c st =>
          getLoop m t vr nv n 0 c st v 0 >>- fun (c, st, (values, index)) =>
          if st = .Discard ∨ st = .Error ∨ st = .Fatal then .ret (c, st, values)
          else if t ≠ .binary ∧ index ≠ nv then fail c "Expected nValues = %zu but was %zu." values
          else .ret (c, st, values)) := by
      refine .refresh hr hm fun c => ?_
      intro c' s b e
      obtain ⟨⟨c1, s1, b1⟩, e1, e⟩ := Outcome.bind_eq_ret.1 e
      rw [TermOf.getLoop hr hm _ _ _ _ _ _ _ _ e1]
      simp only [Outcome.ret_bind] at e ⊢
      split at e
      · rename_i h; cases e; rw [if_pos h]
      · rename_i h
        rw [if_neg h]
        split at e
        · rename_i h; cases e; rw [if_pos h]; rfl
        · rename_i h2; cases e; rw [if_neg h2]
    split
    · exact .nonNull key
    · exact key

theorem sameReads_refused (hm : RefFMU3 m) {t : IType} {w : World F D} (h : Reachable m t w) (tr : List (Ev F)) :
    SameReads m w { w with inst := w.inst.refusedSet tr } := by
  intro fuel t vr n v nv ha w₁ s o e
  obtain ⟨E, hr, hE⟩ := hm.respects
  have hw := h.self hr hE
  have hw' : WRel (SRel m E Tight.full) (fun _ => True) (fun _ => True) w
      { w with inst := { w.inst with mv := { w.inst.mv with trace := tr } } } :=
    ⟨hw.inst.upd (hr.trace _ _ w.inst.mv.trace tr (hE w.inst.mv)), hw.slots, hw.bufs⟩
  have hs := step_rel hr .full (fuel := fuel) hw' (.get t vr n v nv) (fun _ _ => trivial) (fun _ _ => trivial) (fun _ _ _ => trivial)
  rw [e] at hs
  cases e2 : step m fuel { w with inst := { w.inst with mv := { w.inst.mv with trace := tr } } } (.get t vr n v nv) with
  | ub => rw [e2] at hs; cases hs
  | hang => rw [e2] at hs; cases hs
  | ret a =>
    obtain ⟨w2, s2, o2⟩ := a
    rw [e2] at hs
    obtain ⟨-, hs⟩ := hs
    cases hs
    simp only [step] at e2 ⊢
    obtain ⟨⟨c, s, b⟩, e3, e4⟩ := Outcome.bind_eq_ret.1 e2
    cases e4
    have ha' : allowed w.inst.ctx MASK_Get = true := (allowed_fn w.inst.ctx (.get t)).2 ha
    have := termOf_getVars hm.readsAnyMode hm.eff.okOrError (c := { w.inst with mv := { w.inst.mv with trace := tr } }) ha' _ _ _ e3
    refine ⟨{ w with inst := c.setState .terminated }, ?_⟩
    simp only [World.run]
    erw [this]
    rfl

theorem sameReads_dirty (hc : ∀ ctx mv, m.calculateValues ctx mv = .ret (mv, .OK, ())) {w : World F D} (b : Bool) :
    SameReads m w { w with inst := w.inst.setDirty b } := by
  intro fuel t vr n v nv ha w₁ s o e
  have ha' : allowed w.inst.ctx MASK_Get = true := (allowed_fn w.inst.ctx (.get t)).2 ha
  have ha2 : allowed (w.inst.setDirty b).ctx MASK_Get = true := ha'
  have ref : ∀ (c : Comp F D) b (k : Comp F D → Status → Res F D (Ptr (t.Val F))),
      refresh m .OK (c.setDirty b) v k = k (c.setDirty false) .OK := by
    intro c b k
    cases b
    · rfl
    · have h : (c.setDirty true).mv.isDirtyValues = true := rfl
      simp only [refresh, h, if_true, hc, Comp.lift, Outcome.ret_bind, call_OK]
      rfl
  have ref0 : ∀ (c : Comp F D) (k : Comp F D → Status → Res F D (Ptr (t.Val F))),
      refresh m .OK c v k = k (c.setDirty false) .OK := fun c k => ref c c.mv.isDirtyValues k
  simp only [step] at e ⊢
  obtain ⟨⟨c1, s1, v1⟩, e1, e⟩ := Outcome.bind_eq_ret.1 e
  cases e
  have : ∃ c2, getVars m t (w.inst.setDirty b) vr n v nv = .ret (c2, s, v1) := by
    simp only [getVars, begin, beginFunction, ha', ha2, if_true, ref, ref0] at e1 ⊢
    split at e1
    · cases e1; rename_i h; exact ⟨_, by rw [if_pos h]⟩
    · rename_i h
      rw [if_neg h]
      unfold assertNonNull at e1 ⊢
      split at e1
      · rename_i h; cases e1; exact ⟨_, by rw [if_pos h]⟩
      · rename_i h
        rw [if_neg h]
        split at e1
        · rename_i h
          rw [if_pos h]
          split at e1
          · rename_i h; cases e1; exact ⟨_, by rw [if_pos h]⟩
          · rename_i h; exact ⟨_, by rw [if_neg h]; exact e1⟩
        · rename_i h; exact ⟨_, by rw [if_neg h]; exact e1⟩
  obtain ⟨c2, this⟩ := this
  exact ⟨_, by simp only [World.run, this]; rfl⟩

theorem each_stop {fuel : Nat} {mk : ρ → Op F} {ps : List ρ} {w w' : World F D} {s os}
    (h : each m fuel mk w ps = .ret (w', s, os)) (hs : s ≠ .OK) :
    ∃ pre p post w₀ os₀ o, ps = pre ++ p :: post ∧ each m fuel mk w pre = .ret (w₀, .OK, os₀) ∧
      step m fuel w₀ (mk p) = .ret (w', s, o) := by
  induction ps generalizing w os with
  | nil => cases h; exact absurd rfl hs
  | cons p ps ih =>
    simp only [each] at h
    obtain ⟨⟨w1, s1, o1⟩, e1, h⟩ := Outcome.bind_eq_ret.1 h
    simp only at h
    split at h
    · rename_i h1; subst h1
      obtain ⟨⟨w2, s2, l2⟩, e2, h⟩ := Outcome.bind_eq_ret.1 h
      cases h
      obtain ⟨pre, q, post, w₀, os₀, o, rfl, h1, h2⟩ := ih e2
      exact ⟨p :: pre, q, post, w₀, o1 :: os₀, o, rfl, by simp [each, e1, h1], h2⟩
    · cases h
      exact ⟨[], p, ps, w, [], o1, rfl, rfl, e1⟩

theorem each_reachable (hm : OkOrError m) {t : IType} {fuel : Nat} {mk : ρ → Op F} {ps : List ρ} {w w' : World F D} {s os}
    (hw : Reachable m t w) (h : each m fuel mk w ps = .ret (w', s, os)) : Reachable m t w' := by
  induction ps generalizing w os with
  | nil => cases h; exact hw
  | cons p ps ih =>
    simp only [each] at h
    obtain ⟨⟨w1, s1, o1⟩, e1, h⟩ := Outcome.bind_eq_ret.1 h
    simp only at h
    split at h
    · obtain ⟨⟨w2, s2, l2⟩, e2, h⟩ := Outcome.bind_eq_ret.1 h
      cases h
      exact ih (Reachable.call hm hw e1) e2
    · cases h
      exact Reachable.call hm hw e1

end FMI3
end Verif
