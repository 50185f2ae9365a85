import Verif.Lemmas.Ends
import Verif.Props.C20
import Verif.Props.C45
import Verif.Props.C61

/-!
# Legal calls return

A call neither hangs (`Verif.Lemmas.Ends`) nor executes undefined behaviour (C45), so it returns; C61 says what.
-/

set_option linter.unusedSectionVars false

namespace Verif

theorem Outcome.exists_ret {α : Type} {r : Outcome α} (h1 : r ≠ .hang) (h2 : r ≠ .ub) : ∃ a, r = .ret a := by
  cases r with
  | ret a => exact ⟨a, rfl⟩
  | ub => exact absurd rfl h2
  | hang => exact absurd rfl h1

section
variable {F D : Type} [Arith F] [HasInf F] {m : Model F D} {p : Profile F D}

theorem FMI2.legal_ret (h : FMI2.Describes m p) {t : IType} {w : FMI2.World F D} (hw : FMI2.Reachable m t w) {op : FMI2.Op F}
    (hd : op.fn ≠ .doStep) (wf : FMI2.WellFormed w op) (fuel : Nat) : ∃ x, FMI2.step m fuel w op = .ret x :=
  Outcome.exists_ret (FMI2.step_ends h.ref.endsAll hd fuel w) fun e => FMI2.C45 h.ref hw wf ⟨fuel, e⟩

theorem FMI3.legal_ret (h : FMI3.Describes m p) {t : IType} {w : FMI3.World F D} (hw : FMI3.Reachable m t w) {op : FMI3.Op F}
    (hn : p.needs w.inst.ctx) (hd : op.fn ≠ .doStep) (wf : FMI3.WellFormed w op) (he : FMI3.EnoughValues op)
    (hp : op.fn ≠ .activateModelPartition) (ho : op.fn = .updateDiscreteStates → ¬p.over w.inst.mv.data) (fuel : Nat) :
    ∃ x, FMI3.step m fuel w op = .ret x := by
  refine Outcome.exists_ret (FMI3.step_ends h.ref.endsAll hd fuel w) ?_
  cases h with
  | bouncingBall => exact fun e => FMI3.C45_robust .bouncingBall hw wf ⟨fuel, e⟩
  | dahlquist => exact fun e => FMI3.C45_robust .dahlquist hw wf ⟨fuel, e⟩
  | roberts => exact fun e => FMI3.C45_robust .roberts hw wf ⟨fuel, e⟩
  | vanDerPol => exact fun e => FMI3.C45_robust .vanDerPol hw wf ⟨fuel, e⟩
  | feedthrough => exact fun e => FMI3.C45_feedthrough_partial hw wf he ⟨fuel, e⟩
  | resource fs =>
    refine fun e => FMI3.C45_resource_partial hw (fun path hl => ?_) wf ⟨fuel, e⟩
    obtain ⟨q, b, hq, -⟩ := hn
    rw [hl] at hq
    simp only [Resource.resourcePath, if_true] at hq
    split at hq
    · cases hq
    · next h => exact Nat.lt_of_not_le h
  | stair =>
    refine FMI3.step_noUb Stair.safe (hw.sound .stair Stair.safe Stair.bounded (fun h => absurd h (by simp [MV.zero, Stair.model])) trivial) wf
      (fun e _ => by subst e; exact he) (fun h => ?_) (fun _ _ => .ret)
    have : ¬ 10 ≤ w.inst.mv.data.counter := ho (h.resolve_right hd)
    show w.inst.mv.data.counter < 2 ^ 31 - 1
    omega
  | clocks =>
    refine fun e => FMI3.C45_clocks_partial hw wf ?_ ⟨fuel, e⟩
    cases op <;> first | exact trivial | exact absurd rfl hp

theorem FMI3.Args.enough {w : FMI3.World F D} {op : FMI3.Op F} (h : FMI3.Args m p w op) : FMI3.EnoughValues op := by
  cases op <;> try exact trivial
  rcases h with h | ⟨-, h⟩
  · subst h; exact Nat.zero_le _
  · exact Nat.le_of_eq h

end

section
variable {D : Type} {m : Model XRat D} {p : Profile XRat D}

/-- A communication step that fits returns. -/
theorem FMI2.doStep_legal (hm : FMI2.Describes m p) {t : IType} {w : FMI2.World XRat D} (hw : FMI2.Reachable m t w)
    (hs : w.inst.ctx.state = .stepComplete) (ho : ¬p.over w.inst.mv.data) {a d hh s t₀ : Rat}
    (ha : w.inst.clock.Accepts (.fin a) (.fin d)) (hh' : m.h = .fin hh) (hT : Ticks hh s t₀ w.inst) {K fuel : Nat}
    (hK : 2 * |a + d| + 1 ≤ t₀ + K * hh) (hb : w.inst.nSteps + K < 2 ^ 64) (hf : K < fuel) :
    ∃ w' s o, FMI2.step m fuel w (.doStep (.fin a) (.fin d)) = .ret (w', s, o) ∧ (s = .OK ∨ s = .Discard) := by
  have hok := hm.ref.eff.okOrError
  have h0 : 0 ≤ hh := by cases hm <;> cases hh' <;> decide +kernel
  have key : (FMI2.doStepLoop m (.fin (a + d)) fuel w.inst .OK).Ends := FMI2.loop_ends hm.ref.ends hok hh' h0 hT hb hK hf
  have hal : allowed w.inst.ctx FMI2.MASK_DoStep = true := (FMI2.allowed_fn _ .doStep).2 (by rw [hs]; decide)
  obtain ⟨k1, k2, k3⟩ := ha.checks
  have hst : FMI2.step m fuel w (.doStep (.fin a) (.fin d)) = w.run (FMI2.doStepLoop m (.fin (a + d)) fuel w.inst .OK) fun _ => .unit := by
    simp only [FMI2.step, FMI2.doStep, FMI2.begin, beginFunction]
    rw [if_pos hal, if_neg (by simpa [Comp.clock] using k1), if_neg (by simpa using k2), if_neg (by simpa [Comp.clock] using k3)]
    rfl
  have hends : (FMI2.step m fuel w (.doStep (.fin a) (.fin d))).Ends := by
    rw [hst]
    exact .bind key fun _ => .ret _
  obtain ⟨⟨w', st, o⟩, e⟩ := Outcome.exists_ret hends fun e => FMI2.C45 hm.ref hw (op := .doStep (.fin a) (.fin d)) trivial ⟨fuel, e⟩
  refine ⟨w', st, o, e, ?_⟩
  rw [hst] at e
  obtain ⟨⟨c', s', u⟩, e1, e⟩ := Outcome.bind_eq_ret.1 e
  cases e
  obtain ⟨n, -, hl⟩ := FMI2.Loop.of_eq hok e1
  obtain ⟨od, hon⟩ := hm.ongoing
  obtain ⟨hlen, hinv⟩ := hw.ready od hm.ref
  have hconf : od.Configured w.inst := hinv.resolve_left (by rw [hs]; simp [Mode.early])
  have := hl.accepted hm.lawful hon (hconf.ready hlen) ho
  rcases hl.status with h | h | h
  · exact .inl h
  · exact .inr h
  · exact absurd h this

/-- A communication step that fits returns `fmi3OK`. -/
theorem FMI3.doStep_legal (hm : FMI3.Describes m p) {t : IType} {w : FMI3.World XRat D} (hw : FMI3.ReachableProper m t w)
    (hn : p.needs w.inst.ctx) (hs : w.inst.ctx.state = .stepMode) (ho : ¬p.over w.inst.mv.data) {a d hh s t₀ : Rat} {out : FMI3.StepOut XRat}
    (wf : FMI3.WellFormed w (.doStep (.fin a) (.fin d) out))
    (ha : w.inst.clock.Accepts (.fin a) (.fin d)) (hh' : m.h = .fin hh) (hT : Ticks hh s t₀ w.inst) {K fuel : Nat}
    (hK : 2 * |a + d| + 1 ≤ t₀ + K * hh) (hb : w.inst.nSteps + K < 2 ^ 64) (hf : K < fuel) :
    ∃ w' o, FMI3.step m fuel w (.doStep (.fin a) (.fin d) out) = .ret (w', .OK, o) := by
  have hok := hm.ref.eff.okOrError
  have h0 : 0 ≤ hh := by cases hm <;> cases hh' <;> decide +kernel
  have key : (FMI3.doStepLoop m (.fin (a + d)) out fuel w.inst .OK false).Ends := FMI3.loop_ends hm.ref.ends hok hh' h0 hT hb hK hf
  have hal : allowed w.inst.ctx FMI3.MASK_DoStep = true := (FMI3.allowed_fn _ .doStep).2 (by rw [hs]; decide)
  obtain ⟨k1, k2, k3⟩ := ha.checks
  have hub : FMI3.step m fuel w (.doStep (.fin a) (.fin d) out) ≠ .ub := by
    have hw := hw.reachable hok
    cases hm with
    | bouncingBall => exact fun e => FMI3.C45_robust .bouncingBall hw wf ⟨fuel, e⟩
    | dahlquist => exact fun e => FMI3.C45_robust .dahlquist hw wf ⟨fuel, e⟩
    | roberts => exact fun e => FMI3.C45_robust .roberts hw wf ⟨fuel, e⟩
    | vanDerPol => exact fun e => FMI3.C45_robust .vanDerPol hw wf ⟨fuel, e⟩
    | feedthrough => exact fun e => FMI3.C45_feedthrough_partial hw wf trivial ⟨fuel, e⟩
    | resource fs =>
      refine fun e => FMI3.C45_resource_partial hw (fun path hl => ?_) wf ⟨fuel, e⟩
      obtain ⟨q, b, hq, -⟩ := hn
      rw [hl] at hq
      simp only [Resource.resourcePath, if_true] at hq
      split at hq
      · cases hq
      · next h => exact Nat.lt_of_not_le h
    | stair =>
      refine FMI3.step_noUb Stair.safe (hw.sound .stair Stair.safe Stair.bounded (fun h => absurd h (by simp [MV.zero, Stair.model])) trivial) wf
        (fun e _ => by cases e) (fun h => ?_) (fun _ _ => .ret)
      have : ¬ 10 ≤ w.inst.mv.data.counter := ho
      show w.inst.mv.data.counter < 2 ^ 31 - 1
      omega
    | clocks => exact fun e => FMI3.C45_clocks_partial hw wf trivial ⟨fuel, e⟩
  have hends : (FMI3.step m fuel w (.doStep (.fin a) (.fin d) out)).Ends := by
    simp only [FMI3.step, FMI3.doStep, FMI3.begin, beginFunction]
    rw [if_pos hal, if_neg (by simpa [Comp.clock] using k1), if_neg (by simpa using k2), if_neg (by simpa [Comp.clock] using k3)]
    refine .bind (.ite .ub key) fun _ => .ret _
  obtain ⟨⟨w', st, o⟩, e⟩ := Outcome.exists_ret hends hub
  suffices h : st = .OK by subst h; exact ⟨w', o, e⟩
  simp only [FMI3.step, FMI3.World.run, FMI3.doStep, FMI3.begin, beginFunction] at e
  obtain ⟨⟨c', s', u⟩, e1, e⟩ := Outcome.bind_eq_ret.1 e
  cases e
  rw [if_pos hal, if_neg (by simpa [Comp.clock] using k1), if_neg (by simpa using k2),
    if_neg (by simpa [Comp.clock] using k3)] at e1
  split at e1
  · cases e1
  · obtain ⟨n, c1, s1, ehn, r, -, hl, hf⟩ := FMI3.Loop.of_eq hok e1
    obtain ⟨od, hon⟩ := hm.ongoing
    obtain ⟨hlen, hinv⟩ := hw.ready od hm.ref
    have hconf : od.Configured w.inst := hinv.resolve_left (by rw [hs]; simp [Mode.early])
    have := hl.accepted hm.lawful hon hok (hconf.ready hlen) fun _ => ⟨rfl, ho⟩
    subst this
    unfold FMI3.finish FMI3.doStepEnd at hf
    rw [if_pos rfl] at hf
    split at hf
    · cases hf
    · cases hf; rfl

end
end Verif
