import Verif.Lemmas.Ode
import Verif.Lemmas.Reach2
import Verif.Lemmas.Reach3
import Verif.Lemmas.RelRef
import Verif.Lemmas.Restore

/-! # Instances that are ready for `DoStep` -/

set_option linter.unusedSectionVars false

namespace Verif
variable {F D : Type} [Arith F] {m : Model F D}

/-- `configurate` was called. -/
structure Ode.Configured (o : Ode m) (c : Comp F D) : Prop where
  nx : 0 < o.nx → c.nx = o.nx
  nz : 0 < o.nz → c.nz = o.nz

theorem Ode.configurate_conf (o : Ode m) {c c' : Comp F D} {b}
    (h : configurate m c = .ret (c', .OK, b)) : o.Configured c' := by
  unfold configurate at h
  simp only at h
  split at h
  · next hz =>
    rcases callCo_eq_ret.1 h with ⟨c1, x, e1, h⟩ | ⟨c1, s1, a, e1, hs, h⟩
    · obtain ⟨mv, -, rfl⟩ := lift_eq_ret.1 e1
      cases h
      split
      · exact ⟨fun _ => o.numX _, fun _ => o.numZ _⟩
      · next hx => exact ⟨fun h => by have := o.maxNX; omega, fun _ => o.numZ _⟩
    · cases h; exact absurd rfl hs
  · next hz =>
    cases h
    refine ⟨fun h => ?_, fun h => ?_⟩
    · rw [if_pos (by have := o.maxNX; omega)]; exact o.numX _
    · have := o.maxNZ; omega

/-- The modes before `ExitInitializationMode`. -/
def Mode.early (s : Mode) : Prop :=
  s ∈ [Mode.instantiated, .configurationMode, .initializationMode, .terminated, .startAndEnd]

/-- In the modes after `ExitInitializationMode` the instance is configured. -/
def Ode.Inv (o : Ode m) (c : Comp F D) : Prop := c.ctx.state.early ∨ o.Configured c

theorem Ode.inv_stepQuiet (o : Ode m) : StepQuiet m o.Inv where
  lift h _ _ := h.imp id fun h => ⟨h.nx, h.nz⟩
  log _ h := h.imp id fun h => ⟨h.nx, h.nz⟩
  dirty _ h := h.imp id fun h => ⟨h.nx, h.nz⟩
  adv h _ := h.imp id fun h => ⟨h.nx, h.nz⟩
  iu h _ := h.imp id fun h => ⟨h.nx, h.nz⟩
  ncp _ h := h.imp id fun h => ⟨h.nx, h.nz⟩
  nx h := h.imp id fun h => ⟨fun _ => o.numX _, h.nz⟩
  nz h := h.imp id fun h => ⟨h.nx, fun _ => o.numZ _⟩
  x _ h := h.imp id fun h => ⟨h.nx, h.nz⟩
  dx _ h := h.imp id fun h => ⟨h.nx, h.nz⟩
  z _ h := h.imp id fun h => ⟨h.nx, h.nz⟩
  prez _ h := h.imp id fun h => ⟨h.nx, h.nz⟩

theorem Ode.inv_restore (o : Ode m) {c s : Comp F D} (h : o.Inv s) : o.Inv (setFMUState m c s) := by
  refine h.imp id fun h => ⟨fun hx => ?_, fun hz => ?_⟩
  · simp only [setFMUState]; rw [if_pos (by have := o.maxNX; omega)]; exact h.nx hx
  · simp only [setFMUState]; rw [if_pos (by have := o.maxNZ; omega)]; exact h.nz hz

theorem Ode.conf_not_early {o : Ode m} {c : Comp F D} (h : o.Inv c) {s : Mode}
    (e : c.ctx.state = s) (hs : ¬ s.early := by simp [Mode.early]) : o.Configured c :=
  h.resolve_left (e ▸ hs)

/-- `exitInitializationMode` behind the change of the mode. -/
theorem Ode.exit_inv (o : Ode m) (hm : OkOrError m) (c : Comp F D) :
    Outcome.All (call .OK (configurate m c) id fun c st _ => .ret (c, st, ()))
      fun x => o.Inv x.1 := by
  intro x h
  unfold call at h
  obtain ⟨⟨c1, s, u⟩, e1, h⟩ := Outcome.bind_eq_ret.1 h
  have hs : s = .OK ∨ s = .Error := by
    unfold configurate at e1
    simp only at e1
    split at e1
    · rcases callCo_eq_ret.1 e1 with ⟨c1, x, e1, h⟩ | ⟨c1, s1, a, e1, hs, h⟩
      · cases h; exact .inl rfl
      · obtain ⟨mv, e, -⟩ := lift_eq_ret.1 e1
        cases h
        exact hm _ _ _ _ _ (.indicators e)
    · cases e1; exact .inl rfl
  rcases hs with rfl | rfl
  · cases h
    exact .inr (o.configurate_conf e1)
  · simp only [Status.rank] at h
    cases h
    left; simp [Comp.setState, Mode.early]

namespace FMI2
variable [HasInf F]

theorem Ode.histInv (o : Ode m) : HistInv₀ m o.Inv :=
  { o.inv_stepQuiet with
    term := fun _ => .inl (by simp [Comp.setState, Mode.early])
    setup := fun _ _ h _ => h.imp id fun h => ⟨h.nx, h.nz⟩
    enterInit := fun _ _ => .inl (by simp [Comp.setState, Mode.early])
    reset := fun _ => Outcome.all_ret.2 (.inl (by
      simp [Comp.setState, Comp.setTime, Comp.setDirty, Mode.early]))
    restore := fun _ h => o.inv_restore h
    enterEvent := fun h e => .inr (by
      have : o.Configured _ := h.resolve_left (by rcases e with e | e <;> simp [e, Mode.early])
      exact ⟨this.nx, this.nz⟩)
    enterCT := fun h e => .inr (by
      have := Ode.conf_not_early h e
      exact ⟨this.nx, this.nz⟩)
    setTime := fun _ h _ => h.imp id fun h => ⟨h.nx, h.nz⟩
    flags := fun _ _ h => h.imp id fun h => ⟨h.nx, h.nz⟩ }

theorem Ode.step_inv (o : Ode m) (hm : OkOrError m) {fuel : Nat} {w : World F D}
    (h : WInv o.Inv w) (op : Op F) : (step m fuel w op).All fun x => WInv o.Inv x.1 := by
  refine step_inv₀ hm (Ode.histInv o) h op fun hx => ?_
  cases op <;> simp only [Op.fn, reduceCtorEq] at hx
  simp only [step]
  suffices (exitInitializationMode m w.inst).All (fun x => o.Inv x.1) from
    Outcome.All.bind this fun x hx => Outcome.all_ret.2 hx
  unfold exitInitializationMode begin beginFunction
  split
  · unfold refresh
    simp only
    split
    · unfold call
      have : (w.inst.lift (m.calculateValues w.inst.ctx w.inst.mv)).All
          fun x => x.2.1 = .OK ∨ x.2.1 = .Error := by
        rintro ⟨c1, s, u⟩ e
        obtain ⟨mv, e, -⟩ := lift_eq_ret.1 e
        exact hm _ _ _ _ _ (.calc e)
      refine Outcome.All.bind this ?_
      · rintro ⟨c1, s, u⟩ (rfl | rfl)
        · exact o.exit_inv hm _
        · exact Outcome.all_ret.2 (.inl (by simp [Comp.setState, Mode.early]))
    · exact o.exit_inv hm _
  · exact Outcome.all_ret.2 (.inl (by simp [Comp.setState, Mode.early]))

/-- In Step Mode and Model Exchange the solver is set up. -/
theorem Reachable.ready (o : Ode m) (hm : RefFMU2 m) {t : IType} {w : World F D}
    (h : Reachable m t w) : w.inst.Lens m ∧ o.Inv w.inst := by
  obtain ⟨E, hr, hE⟩ := hm.respects
  refine ⟨(h.self hr hE).inst.lens, ?_⟩
  obtain ⟨name, guid, resource, functions, loggingOn, mem, c, l, w₀, fuel, ops, outs, h1, h2, h3⟩ := h
  have h0 : WInv o.Inv w₀ := .initial h2 (.inl (by simp [(instantiate_ctx h1).2.1, Mode.early]))
  clear h1 h2
  induction ops generalizing w₀ outs with
  | nil => cases h3; exact h0.inst
  | cons op ops ih =>
    unfold run at h3
    obtain ⟨⟨w1, s, o'⟩, e1, e⟩ := Outcome.bind_eq_ret.1 h3
    obtain ⟨⟨w2, l⟩, e2, e⟩ := Outcome.bind_eq_ret.1 e
    cases e
    exact ih _ _ e2 (Ode.step_inv o hm.eff.okOrError h0 op _ e1)

end FMI2

namespace FMI3
variable [HasInf F]

theorem Ode.histInv (o : Ode m) : HistInv₀ m o.Inv :=
  { o.inv_stepQuiet with
    term := fun _ => .inl (by simp [Comp.setState, Mode.early])
    enterInit := fun _ _ _ _ => .inl (by simp [Comp.setState, Mode.early])
    enterConfig := fun h e => by
      split
      · exact .inl (by simp [Comp.setState, Mode.early])
      · next h' =>
        have : o.Configured _ := h.resolve_left (by
          simp only [List.mem_cons, List.not_mem_nil, or_false, h', false_or] at e
          rcases e with e | e | e <;> simp [e, Mode.early])
        exact .inr ⟨this.nx, this.nz⟩
    exitConfig := fun {c} h e => by
      by_cases h' : c.ctx.state = .configurationMode
      · exact .inl (by simp [Comp.setState, stateAfterConfig, h', Mode.early])
      · have : o.Configured _ := h.resolve_left (by
          simp only [List.mem_cons, List.not_mem_nil, or_false, h', false_or] at e
          simp [e, Mode.early])
        exact .inr ⟨this.nx, this.nz⟩
    reset := fun _ => Outcome.all_ret.2 (.inl (by
      simp [Comp.setState, Comp.setTime, Comp.setDirty, Mode.early]))
    restore := fun _ h => o.inv_restore h
    enterEvent := fun h e => .inr (by
      have : o.Configured _ := h.resolve_left (by rcases e with e | e <;> simp [e, Mode.early])
      exact ⟨this.nx, this.nz⟩)
    enterCT := fun h e => .inr (by
      have := Ode.conf_not_early h e
      exact ⟨this.nx, this.nz⟩)
    setTime := fun _ h _ => h.imp id fun h => ⟨h.nx, h.nz⟩
    flags := fun _ _ h => h.imp id fun h => ⟨h.nx, h.nz⟩ }

theorem Ode.step_inv (o : Ode m) (hm : OkOrError m) {fuel : Nat} {w : World F D}
    (h : WInv o.Inv w) (op : Op F)
    (hop : op.fn = .enterStepMode → w.inst.ctx.state ≠ .initializationMode) :
    (step m fuel w op).All fun x => WInv o.Inv x.1 := by
  refine step_inv₀ hm (Ode.histInv o) h op fun hx => ?_
  cases op <;> simp only [Op.fn, reduceCtorEq, or_self] at hx
  case enterStepMode =>
    simp only [step]
    suffices (enterStepMode w.inst).All (fun x => o.Inv x.1) from
      Outcome.All.bind this fun x hx => Outcome.all_ret.2 hx
    unfold enterStepMode begin beginFunction
    split
    · next ha =>
      have := ((allowed_initEvent _).1 ha).resolve_left (hop rfl)
      have := Ode.conf_not_early h.inst this
      exact Outcome.all_ret.2 (.inr ⟨this.nx, this.nz⟩)
    · exact Outcome.all_ret.2 (.inl (by simp [Comp.setState, Mode.early]))
  simp only [step]
  suffices (exitInitializationMode m w.inst).All (fun x => o.Inv x.1) from
    Outcome.All.bind this fun x hx => Outcome.all_ret.2 hx
  unfold exitInitializationMode begin beginFunction
  split
  · unfold refresh
    simp only
    split
    · unfold call
      have : (w.inst.lift (m.calculateValues w.inst.ctx w.inst.mv)).All
          fun x => x.2.1 = .OK ∨ x.2.1 = .Error := by
        rintro ⟨c1, s, u⟩ e
        obtain ⟨mv, e, -⟩ := lift_eq_ret.1 e
        exact hm _ _ _ _ _ (.calc e)
      refine Outcome.All.bind this ?_
      · rintro ⟨c1, s, u⟩ (rfl | rfl)
        · exact o.exit_inv hm _
        · exact Outcome.all_ret.2 (.inl (by simp [Comp.setState, Mode.early]))
    · exact o.exit_inv hm _
  · exact Outcome.all_ret.2 (.inl (by simp [Comp.setState, Mode.early]))

theorem ReachableProper.self {t : IType} {w : World F D} {E} (hr : Respects m E) (hE : ∀ mv, E mv mv)
    (h : ReachableProper m t w) :
    WRel (SRel m E Tight.full) (fun _ => True) (fun _ => True) w w := by
  induction h with
  | new h1 h2 =>
    refine ⟨?_, ?_, ?_⟩
    · rw [h2.inst]; exact SRel.self hE h1.lens
    · intro i _; rw [h2.slots]; trivial
    · intro i _
      refine .self fun b hb => .self fun s hs => ?_
      rw [h2.bufs i b hb] at hs; cases hs
  | @call _ _ fuel op _ _ _ e _ ih =>
    have := step_rel hr .full (fuel := fuel) ih op (fun _ _ => trivial) (fun _ _ => trivial) (fun _ _ _ => trivial)
    rw [e] at this
    exact this.1

/-- After `fmi3ExitInitializationMode` the solver is set up. -/
theorem ReachableProper.ready (o : Ode m) (hm : RefFMU3 m) {t : IType} {w : World F D}
    (h : ReachableProper m t w) : w.inst.Lens m ∧ o.Inv w.inst := by
  obtain ⟨E, hr, hE⟩ := hm.respects
  refine ⟨(h.self hr hE).inst.lens, ?_⟩
  suffices WInv o.Inv w from this.inst
  induction h with
  | new h1 h2 => exact .initial h2 (.inl (by simp [h1.ctx.2.1, Mode.early]))
  | call h e hop ih => exact Ode.step_inv o hm.eff.okOrError ih _ hop _ e

end FMI3
end Verif
