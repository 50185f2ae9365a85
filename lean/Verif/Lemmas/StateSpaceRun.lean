import Verif.Lemmas.StateSpaceDims
import Verif.Lemmas.StateSpace
import Verif.Lemmas.StartValues

/-! # Trajectories of StateSpace -/

set_option linter.unusedSectionVars false

namespace Verif
variable {F : Type} [Arith F] [HasInf F]

namespace StateSpace

/-- The forward Euler step on the data. -/
def euler (d : Data F) : Data F :=
  { d with x := fun i => if i < 3 then d.x i +. Arith.lit (1 / 1000) *. (upd d).der_x i else d.x i }

def eulers : Nat → Data F → Data F
  | 0, d => d
  | n + 1, d => eulers n (euler d)

theorem eulers_add (n k : Nat) (d : Data F) : eulers (n + k) d = eulers k (eulers n d) := by
  induction n generalizing d with
  | zero => rw [Nat.zero_add]; rfl
  | succ n ih => rw [Nat.succ_add]; exact ih _

theorem upd_euler {d : Data F} : upd (euler (upd d)) = upd (euler d) := by
  have hx : (euler (upd d)).x = (euler d).x := by
    show (fun i => if i < 3 then d.x i +. Arith.lit (1 / 1000) *. (upd (upd d)).der_x i else d.x i) = _
    rw [upd_upd]; rfl
  have h1 : (upd (euler (upd d))).der_x = (upd (euler d)).der_x := by
    funext i
    show (if i < d.n then accum (accum _ (fun j => d.A i j *. (euler (upd d)).x j) _) _ _ else (if i < d.n then _ else d.der_x i)) =
      (if i < d.n then accum (accum _ (fun j => d.A i j *. (euler d).x j) _) _ _ else d.der_x i)
    rw [hx]
    by_cases h : i < d.n
    · rw [if_pos h, if_pos h]; rfl
    · rw [if_neg h, if_neg h, if_neg h]
  have h2 : (upd (euler (upd d))).y = (upd (euler d)).y := by
    funext i
    show (if i < d.r then accum (accum _ (fun j => d.C i j *. (euler (upd d)).x j) _) _ _ else (if i < d.r then _ else d.y i)) =
      (if i < d.r then accum (accum _ (fun j => d.C i j *. (euler d).x j) _) _ _ else d.y i)
    rw [hx]
    by_cases h : i < d.r
    · rw [if_pos h, if_pos h]; rfl
    · rw [if_neg h, if_neg h, if_neg h]
  have e1 : upd (euler (upd d)) =
      { upd (euler d) with x := (euler (upd d)).x, der_x := (upd (euler (upd d))).der_x, y := (upd (euler (upd d))).y } := rfl
  rw [e1, hx, h1, h2]; rfl

theorem eulers_upd (n : Nat) {d d' : Data F} (h : upd d = upd d') : upd (eulers n d) = upd (eulers n d') := by
  induction n generalizing d d' with
  | zero => exact h
  | succ n ih => exact ih (by rw [← upd_euler (d := d), ← upd_euler (d := d'), h])

/-- The instance is set up for `fmi3DoStep`. -/
structure Armed (c : Comp F (Data F)) : Prop where
  lens : c.Lens (model : Model F (Data F))
  dims : dims3 c.mv.data
  nx : c.nx = 3
  netd : c.mv.nextEventTimeDefined = false
  term : c.mv.terminateSimulation = false

theorem inBounds_of {d : Data F} (h : dims3 d) : inBounds d = true := by
  simp [inBounds, maxDim, h.1, h.2.1, h.2.2]

theorem length_five {α : Type} {l : List α} (h : l.length = 5) : ∃ a b c d e, l = [a, b, c, d, e] := by
  match l, h with
  | [a, b, c, d, e], _ => exact ⟨a, b, c, d, e, rfl⟩

theorem elems_three (v : Nat → F) : elems 3 v = [v 0, v 1, v 2] := rfl

theorem eulerStep_eq {c : Comp F (Data F)} (h : Armed c) :
    ∃ c', eulerStep (model : Model F (Data F)) c = .ret (c', .OK, ()) ∧ Armed c' ∧
      upd c'.mv.data = upd (euler c.mv.data) := by
  obtain ⟨p0, p1, p2, p3, p4, hx⟩ := length_five (h.lens.x : c.x.length = 5)
  obtain ⟨q0, q1, q2, q3, q4, hdx⟩ := length_five (h.lens.dx : c.dx.length = 5)
  have hb := inBounds_of h.dims
  have hn : c.mv.data.n = 3 := h.dims.2.1
  let d := c.mv.data
  have e1 : (model : Model F (Data F)).getContinuousStates c.ctx c.mv (some c.x) c.nx =
      .ret (c.mv, .OK, some [d.x 0, d.x 1, d.x 2, p3, p4]) := by
    simp only [model, assertNotNull, Option.isNone_some, Bool.false_eq_true, if_false, checkNx, guarded, hb, if_true, h.nx, hn, ne_eq,
      not_true, hx, elems_three]
    rfl
  have e2 : ∀ ctx, (model : Model F (Data F)).getDerivatives ctx c.mv (some c.dx) c.nx =
      .ret (calcValues c.mv, .OK, some [(upd d).der_x 0, (upd d).der_x 1, (upd d).der_x 2, q3, q4]) := by
    intro ctx
    simp only [model, assertNotNull, Option.isNone_some, Bool.false_eq_true, if_false, checkNx, calculateValues, guarded, hb, if_true, h.nx, hn, ne_eq,
      not_true, hdx, Outcome.ret_bind]
    rw [show (calcValues c.mv).data.n = 3 from hn, elems_three]
    rfl
  have e3 : ∀ ctx a0 a1 a2 a3 a4, (model : Model F (Data F)).setContinuousStates ctx (calcValues c.mv) (some [a0, a1, a2, a3, a4]) c.nx =
      .ret ({ calcValues c.mv with data := { upd d with n := 3, x := fillVector 3 [a0, a1, a2] d.x }, isDirtyValues := true }, .OK, some [a0, a1, a2, a3, a4]) := by
    intro ctx a0 a1 a2 a3 a4
    have hn' : (calcValues c.mv).data.n = 3 := hn
    have hb' : inBounds (calcValues c.mv).data = true := hb
    simp only [model, assertNotNull, Option.isNone_some, Bool.false_eq_true, if_false, checkNx, guarded, if_true, h.nx, ne_eq, hn', hb',
      not_true, readN, Ptr.read, List.getElem?_cons_zero, List.getElem?_cons_succ, Outcome.ret_bind]
    rfl
  have hu : ∀ X, { upd d with n := 3, x := X } = { upd d with x := X } := fun X => by
    show _ = { upd d with n := (upd d).n, x := X }
    rw [show (upd d).n = 3 from hn]
  refine ⟨?c, ?e, ?_, ?_⟩
  case e =>
    unfold eulerStep
    rw [if_pos (by simp [h.nx, model])]
    simp only [callCo, Comp.lift, e1, e2, Outcome.ret_bind, Option.getD_some]
    simp only [h.nx, eulerUpdate]
    have := e3 c.ctx
    rw [h.nx] at this
    simp only [this, Outcome.ret_bind]
    rfl
  · exact ⟨⟨h.lens.z, h.lens.prez, rfl, rfl⟩, ⟨h.dims.1, rfl, h.dims.2.2⟩, rfl, h.netd, h.term⟩
  · show upd { upd d with n := 3, x := fillVector 3 [d.x 0 +. Arith.lit (1 / 1000) *. (upd d).der_x 0, d.x 1 +. Arith.lit (1 / 1000) *. (upd d).der_x 1,
      d.x 2 +. Arith.lit (1 / 1000) *. (upd d).der_x 2] d.x } = _
    rw [hu, ← upd_euler]
    have hX : fillVector 3 [d.x 0 +. Arith.lit (1 / 1000) *. (upd d).der_x 0, d.x 1 +. Arith.lit (1 / 1000) *. (upd d).der_x 1,
        d.x 2 +. Arith.lit (1 / 1000) *. (upd d).der_x 2] d.x = fun i => if i < 3 then d.x i +. Arith.lit (1 / 1000) *. (upd d).der_x i else d.x i := by
      funext i
      unfold fillVector
      match i with
      | 0 => rfl
      | 1 => rfl
      | 2 => rfl
      | i + 3 => rw [if_neg (by omega), if_neg (by omega)]
    rw [hX]
    show _ = upd { upd d with x := fun i => if i < 3 then d.x i +. Arith.lit (1 / 1000) *. (upd (upd d)).der_x i else d.x i }
    rw [upd_upd]

theorem fixedStep_eq {c : Comp F (Data F)} (h : Armed c) :
    ∃ c', doFixedStep (model : Model F (Data F)) c = .ret (c', .OK, some (false, false)) ∧ Armed c' ∧ upd c'.mv.data = upd (euler c.mv.data) := by
  obtain ⟨c1, e1, s1, hd⟩ := eulerStep_eq h
  have e2 : detectStateEvent (model : Model F (Data F)) (advanceTime model c1) = .ret (advanceTime model c1, .OK, false) := by
    unfold detectStateEvent; rw [if_neg (by simp [model])]
  have s2 : Armed (advanceTime (model : Model F (Data F)) c1) := ⟨⟨s1.lens.z, s1.lens.prez, s1.lens.x, s1.lens.dx⟩, s1.dims, s1.nx, s1.netd, s1.term⟩
  refine ⟨(advanceTime model c1).notify, ?_, ?_, ?_⟩
  · unfold doFixedStep
    simp only [callCo, e1, e2, Outcome.ret_bind, ne_eq, not_true, if_false]
    rw [show ((advanceTime model c1).mv.nextEventTimeDefined && _) = false by rw [s2.netd]; rfl]
    rfl
  · unfold Comp.notify
    split
    · exact ⟨⟨s2.lens.z, s2.lens.prez, s2.lens.x, s2.lens.dx⟩, s2.dims, s2.nx, s2.netd, s2.term⟩
    · exact s2
  · unfold Comp.notify
    split <;> exact hd

end StateSpace

namespace FMI3
open Verif.StateSpace

theorem iter_armed {c : Comp F (Data F)} (h : Armed c) :
    ∃ c', iter model c false = .ret (c', .OK, (false, false)) ∧ Armed c' ∧ upd c'.mv.data = upd (euler c.mv.data) := by
  obtain ⟨c1, e1, h1, hd⟩ := fixedStep_eq h
  refine ⟨c1, ?_, h1, hd⟩
  unfold iter
  rw [show pendingEvent (model : Model F (Data F)) c false = .ret (c, false) from rfl]
  simp only [Outcome.ret_bind, call, e1]
  show Outcome.ret (c1, Status.OK, (false, c1.mv.terminateSimulation)) = _
  rw [h1.term]

theorem Loop.armed {next : F} {c c' : Comp F (Data F)} {ehn n s e r} (h : Loop model next c ehn n c' s e r) (he : ehn = false)
    (hr : Armed c) : s = .OK ∧ e = false ∧ r = true ∧ Armed c' ∧ upd c'.mv.data = upd (eulers n c.mv.data) := by
  induction h with
  | done h => 
    subst he
    simp at h
    exact ⟨rfl, rfl, h, hr, rfl⟩
  | step _ e _ ih =>
    subst he
    obtain ⟨c1, e1, h1, h2⟩ := iter_armed hr
    rw [e1] at e; cases e
    obtain ⟨k1, k2, k3, k4, k5⟩ := ih rfl h1
    exact ⟨k1, k2, k3, k4, k5.trans (eulers_upd _ h2)⟩
  | leave _ e =>
    subst he
    obtain ⟨c1, e1, h1, h2⟩ := iter_armed hr
    rw [e1] at e; cases e
  | error _ e =>
    subst he
    obtain ⟨c1, e1, h1, h2⟩ := iter_armed hr
    rw [e1] at e; cases e

/-- No event is announced and the simulation is not to be terminated. -/
theorem stateSpace_flags : MVInv (model : Model F (Data F)) fun mv => mv.nextEventTimeDefined = false ∧ mv.terminateSimulation = false where
  step := by
    intro f ctx mv mv' s h e
    by_cases hf : f = .event
    · subst hf
      cases e with
      | event h' e => cases h'; cases e; exact ⟨rfl, rfl⟩
    · have := (RefFMU3.stateSpace.eff _ _ _ _ _ e).flags hf
      exact ⟨this.2.2.2.1.trans h.1, this.1.trans h.2⟩
  dirty _ h := h
  trace _ h := h
  start h := h

/-- In Step Mode the solver is set up. -/
theorem ReachableProper.armed {t : IType} {w : World F (Data F)} (h : ReachableProper model t w)
    (hs : w.inst.ctx.state = .stepMode) : Armed w.inst := by
  obtain ⟨E, hr, hE⟩ := (RefFMU3.stateSpace (F := F)).respects
  have hl := (h.self hr hE).inst.lens
  have hf := ((h.reachable RefFMU3.stateSpace.eff.okOrError).mv RefFMU3.stateSpace.eff.okOrError stateSpace_flags ⟨rfl, rfl⟩).inst
  have hx := (DimX.reachable h).resolve_left (by simp [hs])
  exact ⟨hl, hx.1, hx.2.resolve_left (by simp [hs, Mode.early]), hf.1, hf.2⟩

/-- Everything but passive calls. -/
def stirs (fn : Fn) : Prop :=
  (∃ t, fn = .set t) ∨ fn ∈ [Fn.setClock, .getClock, .getIntervalDecimal,
    .activateModelPartition, .setContinuousStates, .setTime, .setFMUState, .reset, .doStep]

theorem unstirred (d₀ : Data F) :
    CallInvX stirs (fun f => f ∈ MFn.reading ∨ f = .event) model (fun _ => True) fun c : Comp F (Data F) => upd c.mv.data = upd d₀ where
  lift := by
    intro c f mv' s h hT e
    rcases hT with hT | rfl
    · exact (reads_upTo _ _ _ _ _ hT e).trans h
    · cases e with
      | event h' e => cases h'; cases e; exact h
  log msg h := by unfold Comp.logError logError; split <;> exact h
  dirty _ h := h
  calls := by
    intro fn hX f hf
    cases fn <;> simp [stirs, Fn.calls, MFn.reading] at hX hf ⊢ <;>
      first | (subst hf; simp) | (rcases hf with rfl | rfl <;> simp)
  step := fun h => absurd (by simp [stirs]) h
  nx := fun _ _ h => h
  nz := fun _ _ h => h
  prez := fun _ _ _ h => h
  term := fun h => h
  enterInit := fun _ _ _ _ h _ => h
  reset := fun h => absurd (by simp [stirs]) h
  restore := fun h => absurd (by simp [stirs]) h
  enterEvent := fun _ _ h _ => h
  enterCT := fun _ _ h _ => h
  setTime := fun h => absurd (by simp [stirs]) h
  enterConfig := fun _ _ h _ => h
  exitConfig := fun _ _ h _ => h
  enterStep := fun _ _ h _ => h
  exitInit := fun _ _ h _ => h

/-- Calls that do not interfere and make no step keep the data. -/
theorem step_unstirred {fuel : Nat} {w : World F (Data F)} {op : Op F} (h : ¬ Interferes op) (hd : op.fn ≠ .doStep) :
    (step model fuel w op).All fun x => upd x.1.inst.mv.data = upd w.inst.mv.data := by
  refine step_keepX RefFMU3.stateSpace.eff.okOrError (unstirred w.inst.mv.data) (fun _ _ _ _ => trivial) rfl (fun _ _ _ _ h => h) ?_
  rintro (h' | h')
  · exact h (.inl h')
  · apply h
    simp only [Interferes, List.mem_cons, List.not_mem_nil, or_false] at h' ⊢
    simp only [hd, or_false] at h'
    right
    rcases h' with h' | h' | h' | h' | h' | h' | h' | h' <;> simp [h']

/-- Calls that do not interfere do a number of forward Euler steps. -/
theorem run_eulers {fuel : Nat} {t : IType} : ∀ (ops : List (Op F)) {w w' : World F (Data F)} {outs},
    ReachableProper model t w → Started w.inst →
    (∀ op ∈ ops, ¬ Interferes op) → run model fuel w ops = .ret (w', outs) →
    (∀ p ∈ outs, p.1 = .OK) →
    ReachableProper model t w' ∧
    ∃ n ≤ fuel * ops.length, upd w'.inst.mv.data = upd (eulers n w.inst.mv.data) ∧
      Advanced (model : Model F (Data F)).h w.inst.times w'.inst.times n := by
  have hk := (RefFMU3.stateSpace (F := F)).eff.okOrError
  intro ops
  induction ops with
  | nil => intro w w' outs h _ _ e _; cases e; exact ⟨h, 0, Nat.zero_le _, rfl, .refl _ _⟩
  | cons op ops ih =>
    intro w w' outs h hst hops e hs
    unfold run at e
    obtain ⟨⟨w1, s, x⟩, e1, e⟩ := Outcome.bind_eq_ret.1 e
    obtain ⟨⟨w2, l⟩, e2, e⟩ := Outcome.bind_eq_ret.1 e
    cases e
    cases hs _ (List.mem_cons_self ..)
    have hp := hops op (by simp)
    have h1 := ReachableProper.call h e1 fun _ h' => hst (by simp [h'])
    have hst1 := step_started hk hst (fun h => hp (.of_restarts h)) _ e1
    obtain ⟨hre, k, hkn, hd, ha⟩ := ih h1 hst1 (fun op h => hops op (by simp [h])) e2
      (fun p h => hs p (by simp [h]))
    suffices ∃ n ≤ fuel, upd w1.inst.mv.data = upd (eulers n w.inst.mv.data) ∧
        Advanced (model : Model F (Data F)).h w.inst.times w1.inst.times n by
      obtain ⟨n, hnf, hd1, ha1⟩ := this
      refine ⟨hre, n + k, ?_, ?_, ha1.trans ha⟩
      · simp only [List.length_cons, Nat.mul_succ]; omega
      · rw [hd, eulers_add]; exact eulers_upd k hd1
    by_cases hdo : op.fn = .doStep
    · cases op <;> simp only [Op.fn, reduceCtorEq] at hdo
      obtain ⟨hst, n, c', ehn, r, hnf, hl, rfl, -⟩ := doStep_loop hk e1
      simp only [Spec.allowedIn, List.mem_cons, List.not_mem_nil, or_false] at hst
      obtain ⟨-, -, -, -, hd1⟩ := hl.armed rfl (h.armed hst)
      obtain ⟨k', -, hk', ha1⟩ := hl.advanced hk
      cases hk' (by simp)
      exact ⟨n, hnf, hd1, ha1.of_eq rfl rfl rfl⟩
    · refine ⟨0, Nat.zero_le _, step_unstirred hp hdo _ e1, ?_⟩
      rw [passive_times hk hp hdo e1]
      exact .refl _ _

end FMI3
end Verif
