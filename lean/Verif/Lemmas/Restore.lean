import Verif.Lemmas.RelHist3
import Verif.Lemmas.RelRef
import Verif.Lemmas.Reach2

/-! # Saving and restoring FMU states -/

set_option linter.unusedSectionVars false

namespace Verif

theorem FMI2.sameConst.refl {F : Type} (x : Ctx F) : FMI2.sameConst x x := ⟨rfl, rfl, rfl, rfl, rfl⟩
theorem FMI2.sameConst.symm {F : Type} {x y : Ctx F} (h : FMI2.sameConst x y) : FMI2.sameConst y x := by
  obtain ⟨h1, h2, h3, h4, h5⟩ := h; exact ⟨h1.symm, h2.symm, h3.symm, h4.symm, h5.symm⟩
theorem FMI2.sameConst.trans {F : Type} {x y z : Ctx F} (h : FMI2.sameConst x y)
    (h' : FMI2.sameConst y z) : FMI2.sameConst x z := by
  obtain ⟨h1, h2, h3, h4, h5⟩ := h
  obtain ⟨k1, k2, k3, k4, k5⟩ := h'
  exact ⟨k1.trans h1, k2.trans h2, k3.trans h3, k4.trans h4, k5.trans h5⟩

namespace FMI2
variable {F D : Type} [Arith F] [HasInf F] {m : Model F D} {E : MV F D → MV F D → Prop}

/-- All instances in a reachable world have the same fixed attributes. -/
theorem Reachable.const (hm : OkOrError m) {t : IType} {w : World F D} (h : Reachable m t w) :
    ∃ x, WInv (fun c => FMI2.sameConst x c.ctx) w := by
  obtain ⟨name, guid, resource, functions, loggingOn, mem, c, l, w₀, fuel, ops, outs, h1, h2, h3⟩ := h
  refine ⟨c.ctx, run_inv hm (HistInv.const m c.ctx) ops (WInv.initial h2 (FMI2.sameConst.refl _)) _ h3⟩

omit [Arith F] [HasInf F] in
theorem WRel.mono {S : Comp F D → Comp F D → Prop} {A B A' B' : Nat → Prop} {w w' : World F D}
    (h : WRel S A B w w') (ha : ∀ i, A' i → A i) (hb : ∀ i, B' i → B i) : WRel S A' B' w w' :=
  ⟨h.inst, fun i hi => h.slots i (ha i hi), fun i hi => h.bufs i (hb i hi)⟩

/-- What `getFMUstate` does. -/
theorem getFMUstate_ok {fuel : Nat} {w w' : World F D} {i : Nat} {o}
    (h : step m fuel w (.getFMUstate i) = .ret (w', .OK, o)) :
    w' = { w with slots := fun j => if j = i then some w.inst else w.slots j } := by
  simp only [step, World.runSlot, getFMUstate, begin, beginFunction] at h
  split at h
  · simp only [Outcome.ret_bind, Outcome.ret.injEq, Prod.mk.injEq] at h; exact h.1.symm
  · simp at h

/-- What `setFMUstate` does. -/
theorem setFMUstate_ok {fuel : Nat} {w w' : World F D} {i : Nat} {o} {s : Comp F D}
    (hs : w.slots i = some s) (h : step m fuel w (.setFMUstate i) = .ret (w', .OK, o)) :
    w' = { w with inst := Verif.setFMUState m w.inst s } := by
  simp only [step, World.run, setFMUstate, begin, beginFunction, hs] at h
  split at h
  · simp at h; exact h.1.symm
  · simp at h

/-- What `serializeFMUstate` does. -/
theorem serializeFMUstate_ok {fuel : Nat} {w w' : World F D} {i b n : Nat} {o} {s : Comp F D}
    (hs : w.slots i = some s) (h : step m fuel w (.serializeFMUstate i b n) = .ret (w', .OK, o)) :
    n = m.sizeOf ∧ ∃ buf, w.bufs b = some buf ∧ m.sizeOf ≤ buf.capacity ∧
      w' = { w with bufs := fun j => if j = b then some { buf with image := some s } else w.bufs j } := by
  simp only [step, World.runBuf, serializeFMUstate, begin, beginFunction, hs] at h
  split at h
  · split at h
    · simp at h
    · next e =>
      simp only [ne_eq, Decidable.not_not] at e
      refine ⟨e, ?_⟩
      cases hb : w.bufs b with
      | none => simp [hb, Buffer.store] at h
      | some buf =>
        simp only [hb, Buffer.store] at h
        split at h
        · simp at h
        · simp only [Outcome.ret_bind, Outcome.ret.injEq, Prod.mk.injEq] at h
          exact ⟨buf, rfl, by omega, h.1.symm⟩
  · simp at h

/-- What `deSerializeFMUstate` does. -/
theorem deSerializeFMUstate_ok {fuel : Nat} {w w' : World F D} {i b n : Nat} {o} {s : Comp F D}
    {buf : Buffer F D} (hb : w.bufs b = some buf) (hs : buf.image = some s)
    (h : step m fuel w (.deSerializeFMUstate b n i) = .ret (w', .OK, o)) :
    n = m.sizeOf ∧ w' = { w with slots := fun j => if j = i then some s else w.slots j } := by
  simp only [step, World.runSlot, deSerializeFMUstate, begin, beginFunction, hb, Buffer.load, hs] at h
  split at h
  · split at h
    · simp at h
    · next e =>
      simp only [ne_eq, Decidable.not_not] at e
      refine ⟨e, ?_⟩
      split at h
      · simp at h
      · simp only [Outcome.ret_bind, Outcome.ret.injEq, Prod.mk.injEq] at h; exact h.1.symm
  · simp at h

/-- Restoring the instance `w.inst` from the FMU-state variable `i` gives a world that cannot be
told from `w`. -/
theorem restore_rel (hr : Respects m E) {A B : Nat → Prop} {w w₂ w₃ : World F D} {i : Nat}
    {fuel : Nat} {o} (hself : WRel (SRel m E Tight.full) (fun _ => True) (fun _ => True) w w)
    (hl : w₂.inst.Lens m) (hc : FMI2.sameConst w.inst.ctx w₂.inst.ctx)
    (hs : w₂.slots i = some w.inst)
    (hA : ∀ j, A j → w₂.slots j = w.slots j) (hB : ∀ j, B j → w₂.bufs j = w.bufs j)
    (h : step m fuel w₂ (.setFMUstate i) = .ret (w₃, .OK, o)) :
    WRel (SRel m E Tight.full) A B w w₃ := by
  rw [setFMUstate_ok hs h]
  refine ⟨?_, fun j hj => ?_, fun j hj => ?_⟩
  · exact setFMUState_self hr hc.rel hl hself.inst
  · simp only; rw [hA j hj]; exact hself.slots j trivial
  · simp only; rw [hB j hj]; exact hself.bufs j trivial

/-- `ops` lead from `w` to `w'`, each call with its own bound on the iterations of loops. -/
inductive History (m : Model F D) : World F D → List (Op F) → World F D → Prop
  | nil (w) : History m w [] w
  | cons {fuel w w₁ w₂ op ops s o} : step m fuel w op = .ret (w₁, s, o) → History m w₁ ops w₂ →
      History m w (op :: ops) w₂

theorem History.of_run {fuel : Nat} {ops : List (Op F)} : ∀ {w w' : World F D} {outs},
    run m fuel w ops = .ret (w', outs) → History m w ops w' := by
  induction ops with
  | nil => intro w w' outs h; cases h; exact .nil _
  | cons op ops ih =>
    intro w w' outs h
    simp only [run] at h
    obtain ⟨⟨w1, s1, o1⟩, e1, h⟩ := Outcome.bind_eq_ret.1 h
    obtain ⟨⟨w2, l2⟩, e2, h⟩ := Outcome.bind_eq_ret.1 h
    cases h
    exact .cons e1 (ih e2)

theorem History.append {w w₁ w₂ : World F D} {a b : List (Op F)} (h : History m w a w₁)
    (h' : History m w₁ b w₂) : History m w (a ++ b) w₂ := by
  induction h with
  | nil => exact h'
  | cons e _ ih => exact .cons e (ih h')

theorem History.inv {P : Comp F D → Prop} (hm : OkOrError m) (hi : HistInv m P) {w w' : World F D} {ops}
    (h : History m w ops w') : WInv P w → WInv P w' := by
  induction h with
  | nil => exact id
  | cons e _ ih => exact fun hw => ih (step_inv hm hi hw _ _ e)

theorem History.frame {w w' : World F D} {ops} (h : History m w ops w') :
    (∀ i, (∀ op ∈ ops, i ∉ op.slotsWritten) → w'.slots i = w.slots i) ∧
    ∀ i, (∀ op ∈ ops, i ∉ op.bufsWritten) → w'.bufs i = w.bufs i := by
  induction h with
  | nil => exact ⟨fun _ _ => rfl, fun _ _ => rfl⟩
  | cons e _ ih =>
    have f1 := step_frame e
    exact ⟨fun i hi => (ih.1 i fun op hop => hi op (by simp [hop])).trans (f1.1 i (hi _ (by simp))),
      fun i hi => (ih.2 i fun op hop => hi op (by simp [hop])).trans (f1.2 i (hi _ (by simp)))⟩

theorem History.self (hr : Respects m E) {w w' : World F D} {ops} (h : History m w ops w') :
    WRel (SRel m E Tight.full) (fun _ => True) (fun _ => True) w w →
    WRel (SRel m E Tight.full) (fun _ => True) (fun _ => True) w' w' := by
  induction h with
  | nil => exact id
  | @cons fuel _ _ _ op _ _ _ e _ ih =>
    intro h
    have := step_rel hr TightOK.full.toTightPre (fuel := fuel) h op (fun _ _ => trivial) (fun _ _ => trivial) (fun _ _ => trivial)
    rw [e] at this
    exact ih this.1

/-- After arbitrary calls `ops` in a world in which `i` then holds the instance of the world at the
beginning, setting the state makes the instance behave as at the beginning. -/
theorem restore (hm : OkOrError m) (hr : Respects m E) (hE : ∀ mv, E mv mv) {t : IType}
    {w w₁ w₂ w₃ : World F D} {i : Nat} {f₃ : Nat} {ops o} (hw : Reachable m t w)
    (hw₁ : ∃ s, w₁ = { w with slots := s } ∧ ∀ j x, s j = some x → x = w.inst ∨ w.slots j = some x)
    (h₂ : History m w₁ ops w₂) (hs : w₂.slots i = some w.inst)
    (h₃ : step m f₃ w₂ (.setFMUstate i) = .ret (w₃, .OK, o)) :
    w₃.inst.ctx.time = w₁.inst.ctx.time ∧ w₃.inst.ctx.state = w₁.inst.ctx.state ∧
    ∀ fuel later, Separate ops later →
      (run m fuel w₃ later).shown = (run m fuel w₁ later).shown := by
  have hself := Reachable.self hr hE hw
  have hinst : w₁.inst = w.inst := by obtain ⟨s, rfl, -⟩ := hw₁; rfl
  have hself1 : WRel (SRel m E Tight.full) (fun _ => True) (fun _ => True) w₁ w₁ := by
    obtain ⟨s, rfl, hx⟩ := hw₁
    refine ⟨hself.inst, fun j _ => .self fun x e => ?_, hself.bufs⟩
    rcases hx j x e with rfl | e
    · exact hself.inst
    · have := hself.slots j trivial
      rw [e] at this
      exact this
  obtain ⟨x, hx⟩ := Reachable.const hm hw
  have hx1 : WInv (fun c => FMI2.sameConst x c.ctx) w₁ := by
    obtain ⟨s, rfl, hy⟩ := hw₁
    refine ⟨hx.inst, fun j y e => ?_, hx.bufs⟩
    rcases hy j y e with rfl | e
    · exact hx.inst
    · exact hx.slots j y e
  have hx2 := h₂.inv hm (HistInv.const m x) hx1
  have hself2 := h₂.self hr hself1
  have hf := h₂.frame
  have key := restore_rel (A := fun j => ∀ op ∈ ops, j ∉ op.slotsWritten)
    (B := fun j => ∀ op ∈ ops, j ∉ op.bufsWritten) hr hself1 hself2.inst.lens
    (hx1.inst.symm.trans hx2.inst) (hinst ▸ hs) hf.1 hf.2 h₃
  refine ⟨key.inst.ctx.time, key.inst.state, fun fuel later hsep => ?_⟩
  refine (shown_of_rel (run_rel hr TightOK.full later key fun op hop => ?_)).symm
  exact ⟨fun j hj a ha hja => (hsep a ha op hop).1 j hja hj,
    fun j hj a ha hja => (hsep a ha op hop).2 j hja hj⟩

end FMI2

namespace FMI3
variable {F D : Type} [Arith F] [HasInf F] {m : Model F D} {E : MV F D → MV F D → Prop}

/-- All instances in a reachable world have the same fixed attributes. -/
theorem Reachable.const (hm : OkOrError m) {t : IType} {w : World F D} (h : Reachable m t w) :
    ∃ x, WInv (fun c => FMI2.sameConst x c.ctx) w := by
  obtain ⟨c, w₀, fuel, ops, outs, h1, h2, h3⟩ := h
  refine ⟨c.ctx, run_inv hm (HistInv.const m c.ctx) ops ⟨h2.inst ▸ FMI2.sameConst.refl _, ?_, ?_⟩ _ h3⟩
  · intro i s e; simp [h2.slots] at e
  · intro i b s e e'; simp [h2.bufs i b e] at e'

omit [Arith F] [HasInf F] in
theorem WRel.mono {S : Comp F D → Comp F D → Prop} {A B A' B' : Nat → Prop} {w w' : World F D}
    (h : WRel S A B w w') (ha : ∀ i, A' i → A i) (hb : ∀ i, B' i → B i) : WRel S A' B' w w' :=
  ⟨h.inst, fun i hi => h.slots i (ha i hi), fun i hi => h.bufs i (hb i hi)⟩

/-- What `getFMUState` does. -/
theorem getFMUState_ok {fuel : Nat} {w w' : World F D} {i : Nat} {o}
    (h : step m fuel w (.getFMUState i) = .ret (w', .OK, o)) :
    w' = { w with slots := fun j => if j = i then some w.inst else w.slots j } := by
  simp only [step, World.runSlot, getFMUState, begin, beginFunction] at h
  split at h
  · simp only [Outcome.ret_bind, Outcome.ret.injEq, Prod.mk.injEq] at h; exact h.1.symm
  · simp at h

/-- What `setFMUState` does. -/
theorem setFMUState_ok {fuel : Nat} {w w' : World F D} {i : Nat} {o} {s : Comp F D}
    (hs : w.slots i = some s) (h : step m fuel w (.setFMUState i) = .ret (w', .OK, o)) :
    w' = { w with inst := Verif.setFMUState m w.inst s } := by
  simp only [step, World.run, setFMUState, begin, beginFunction, hs, callLast, call] at h
  split at h
  · simp [Status.rank] at h; exact h.1.symm
  · simp at h

/-- What `serializeFMUState` does. -/
theorem serializeFMUState_ok {fuel : Nat} {w w' : World F D} {i b n : Nat} {o} {s : Comp F D}
    (hs : w.slots i = some s) (h : step m fuel w (.serializeFMUState i b n) = .ret (w', .OK, o)) :
    n = m.sizeOf ∧ ∃ buf, w.bufs b = some buf ∧ m.sizeOf ≤ buf.capacity ∧
      w' = { w with bufs := fun j => if j = b then some { buf with image := some s } else w.bufs j } := by
  simp only [step, World.runBuf, serializeFMUState, begin, beginFunction, hs] at h
  split at h
  · split at h
    · simp at h
    · next e =>
      simp only [ne_eq, Decidable.not_not] at e
      refine ⟨e, ?_⟩
      cases hb : w.bufs b with
      | none => simp [hb, Buffer.store] at h
      | some buf =>
        simp only [hb, Buffer.store] at h
        split at h
        · simp at h
        · simp only [Outcome.ret_bind, Outcome.ret.injEq, Prod.mk.injEq] at h
          exact ⟨buf, rfl, by omega, h.1.symm⟩
  · simp at h

/-- What `deserializeFMUState` does. -/
theorem deserializeFMUState_ok {fuel : Nat} {w w' : World F D} {i b n : Nat} {o} {s : Comp F D}
    {buf : Buffer F D} (hb : w.bufs b = some buf) (hs : buf.image = some s)
    (h : step m fuel w (.deserializeFMUState b n i) = .ret (w', .OK, o)) :
    n = m.sizeOf ∧ w' = { w with slots := fun j => if j = i then some s else w.slots j } := by
  simp only [step, World.runSlot, deserializeFMUState, begin, beginFunction, hb, Buffer.load, hs] at h
  split at h
  · split at h
    · simp at h
    · next e =>
      simp only [ne_eq, Decidable.not_not] at e
      refine ⟨e, ?_⟩
      split at h
      · simp at h
      · simp only [Outcome.ret_bind, Outcome.ret.injEq, Prod.mk.injEq] at h; exact h.1.symm
  · simp at h

/-- Restoring the instance `w.inst` from the FMU-state variable `i` gives a world that cannot be
told from `w`. -/
theorem restore_rel (hr : Respects m E) {A B : Nat → Prop} {w w₂ w₃ : World F D} {i : Nat}
    {fuel : Nat} {o} (hself : WRel (SRel m E Tight.full) (fun _ => True) (fun _ => True) w w)
    (hl : w₂.inst.Lens m) (hc : FMI2.sameConst w.inst.ctx w₂.inst.ctx)
    (hs : w₂.slots i = some w.inst)
    (hA : ∀ j, A j → w₂.slots j = w.slots j) (hB : ∀ j, B j → w₂.bufs j = w.bufs j)
    (h : step m fuel w₂ (.setFMUState i) = .ret (w₃, .OK, o)) :
    WRel (SRel m E Tight.full) A B w w₃ := by
  rw [setFMUState_ok hs h]
  refine ⟨?_, fun j hj => ?_, fun j hj => ?_⟩
  · exact setFMUState_self hr hc.rel hl hself.inst
  · simp only; rw [hA j hj]; exact hself.slots j trivial
  · simp only; rw [hB j hj]; exact hself.bufs j trivial

/-- `ops` lead from `w` to `w'`, each call with its own bound on the iterations of loops. -/
inductive History (m : Model F D) : World F D → List (Op F) → World F D → Prop
  | nil (w) : History m w [] w
  | cons {fuel w w₁ w₂ op ops s o} : step m fuel w op = .ret (w₁, s, o) → History m w₁ ops w₂ →
      History m w (op :: ops) w₂

theorem History.of_run {fuel : Nat} {ops : List (Op F)} : ∀ {w w' : World F D} {outs},
    run m fuel w ops = .ret (w', outs) → History m w ops w' := by
  induction ops with
  | nil => intro w w' outs h; cases h; exact .nil _
  | cons op ops ih =>
    intro w w' outs h
    simp only [run] at h
    obtain ⟨⟨w1, s1, o1⟩, e1, h⟩ := Outcome.bind_eq_ret.1 h
    obtain ⟨⟨w2, l2⟩, e2, h⟩ := Outcome.bind_eq_ret.1 h
    cases h
    exact .cons e1 (ih e2)

theorem History.append {w w₁ w₂ : World F D} {a b : List (Op F)} (h : History m w a w₁)
    (h' : History m w₁ b w₂) : History m w (a ++ b) w₂ := by
  induction h with
  | nil => exact h'
  | cons e _ ih => exact .cons e (ih h')

theorem History.inv {P : Comp F D → Prop} (hm : OkOrError m) (hi : HistInv m P) {w w' : World F D} {ops}
    (h : History m w ops w') : WInv P w → WInv P w' := by
  induction h with
  | nil => exact id
  | cons e _ ih => exact fun hw => ih (step_inv hm hi hw _ _ e)

theorem History.frame {w w' : World F D} {ops} (h : History m w ops w') :
    (∀ i, (∀ op ∈ ops, i ∉ op.slotsWritten) → w'.slots i = w.slots i) ∧
    ∀ i, (∀ op ∈ ops, i ∉ op.bufsWritten) → w'.bufs i = w.bufs i := by
  induction h with
  | nil => exact ⟨fun _ _ => rfl, fun _ _ => rfl⟩
  | cons e _ ih =>
    have f1 := step_frame e
    exact ⟨fun i hi => (ih.1 i fun op hop => hi op (by simp [hop])).trans (f1.1 i (hi _ (by simp))),
      fun i hi => (ih.2 i fun op hop => hi op (by simp [hop])).trans (f1.2 i (hi _ (by simp)))⟩

theorem History.self (hr : Respects m E) {w w' : World F D} {ops} (h : History m w ops w') :
    WRel (SRel m E Tight.full) (fun _ => True) (fun _ => True) w w →
    WRel (SRel m E Tight.full) (fun _ => True) (fun _ => True) w' w' := by
  induction h with
  | nil => exact id
  | @cons fuel _ _ _ op _ _ _ e _ ih =>
    intro h
    have := step_rel hr .full (fuel := fuel) h op (fun _ _ => trivial) (fun _ _ => trivial) (fun _ _ _ => trivial)
    rw [e] at this
    exact ih this.1

/-- After arbitrary calls `ops` in a world in which `i` then holds the instance of the world at the
beginning, setting the state makes the instance behave as at the beginning. -/
theorem restore (hm : OkOrError m) (hr : Respects m E) (hE : ∀ mv, E mv mv) {t : IType}
    {w w₁ w₂ w₃ : World F D} {i : Nat} {f₃ : Nat} {ops o} (hw : Reachable m t w)
    (hw₁ : ∃ s, w₁ = { w with slots := s } ∧ ∀ j x, s j = some x → x = w.inst ∨ w.slots j = some x)
    (h₂ : History m w₁ ops w₂) (hs : w₂.slots i = some w.inst)
    (h₃ : step m f₃ w₂ (.setFMUState i) = .ret (w₃, .OK, o)) :
    w₃.inst.ctx.time = w₁.inst.ctx.time ∧ w₃.inst.ctx.state = w₁.inst.ctx.state ∧
    ∀ fuel later, Separate ops later →
      (run m fuel w₃ later).shown = (run m fuel w₁ later).shown := by
  have hself := Reachable.self hr hE hw
  have hinst : w₁.inst = w.inst := by obtain ⟨s, rfl, -⟩ := hw₁; rfl
  have hself1 : WRel (SRel m E Tight.full) (fun _ => True) (fun _ => True) w₁ w₁ := by
    obtain ⟨s, rfl, hx⟩ := hw₁
    refine ⟨hself.inst, fun j _ => .self fun x e => ?_, hself.bufs⟩
    rcases hx j x e with rfl | e
    · exact hself.inst
    · have := hself.slots j trivial
      rw [e] at this
      exact this
  obtain ⟨x, hx⟩ := Reachable.const hm hw
  have hx1 : WInv (fun c => FMI2.sameConst x c.ctx) w₁ := by
    obtain ⟨s, rfl, hy⟩ := hw₁
    refine ⟨hx.inst, fun j y e => ?_, hx.bufs⟩
    rcases hy j y e with rfl | e
    · exact hx.inst
    · exact hx.slots j y e
  have hx2 := h₂.inv hm (HistInv.const m x) hx1
  have hself2 := h₂.self hr hself1
  have hf := h₂.frame
  have key := restore_rel (A := fun j => ∀ op ∈ ops, j ∉ op.slotsWritten)
    (B := fun j => ∀ op ∈ ops, j ∉ op.bufsWritten) hr hself1 hself2.inst.lens
    (hx1.inst.symm.trans hx2.inst) (hinst ▸ hs) hf.1 hf.2 h₃
  refine ⟨key.inst.ctx.time, key.inst.state, fun fuel later hsep => ?_⟩
  refine (shown_of_rel (run_rel hr later key fun op hop => ?_)).symm
  exact ⟨fun j hj a ha hja => (hsep a ha op hop).1 j hja hj,
    fun j hj a ha hja => (hsep a ha op hop).2 j hja hj⟩

end FMI3

end Verif
