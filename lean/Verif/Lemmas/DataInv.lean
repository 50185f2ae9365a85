import Verif.Lemmas.Traj
import Verif.Lemmas.DoStep

/-!
# Properties of the data that solver steps and events keep
-/

set_option linter.unusedSectionVars false

namespace Verif
variable {F D : Type} [Arith F] [HasInf F] {m : Model F D}

/-- Solver steps and events keep `P`. -/
structure Ode.Keeps (o : Ode m) (P : D → Prop) : Prop where
  «calc» : ∀ d, P (o.calc' d) ↔ P d
  euler : ∀ d, P d → P (o.euler d)
  event : ∀ {eu ctx mv mv' s}, m.eventUpdate = some eu → P mv.data → eu ctx mv = .ret (mv', s, ()) → P mv'.data

namespace Ode
variable {o : Ode m} {P : D → Prop}

theorem Keeps.of_calc (k : o.Keeps P) {d d' : D} (h : o.calc' d = o.calc' d') (hp : P d') : P d := by
  rw [← k.calc, h, k.calc]; exact hp

theorem Ready.lift {c : Comp F D} (h : o.Ready c) (mv : MV F D) : o.Ready { c with mv := mv } :=
  ⟨⟨h.lens.z, h.lens.prez, h.lens.x, h.lens.dx⟩, h.nx, h.nz⟩

theorem Keeps.fixedStep (k : o.Keeps P) {c c' : Comp F D} (h : o.Ready c) (hp : P c.mv.data) {ev}
    (e : doFixedStep m c = .ret (c', .OK, ev)) : o.Ready c' ∧ P c'.mv.data := by
  obtain ⟨c2, e2, hr, -, -, hd, -⟩ := o.fixedStep_eq h
  rw [e2] at e
  cases e
  exact ⟨hr, k.of_calc hd (k.euler _ hp)⟩

theorem Keeps.lift (k : o.Keeps P) {c c' : Comp F D} (h : o.Ready c) (hp : P c.mv.data) {eu s}
    (he : m.eventUpdate = some eu) (e : c.lift (eu c.ctx c.mv) = .ret (c', s, ())) : o.Ready c' ∧ P c'.mv.data := by
  obtain ⟨mv, e1, rfl⟩ := lift_eq_ret.1 e
  exact ⟨h.lift mv, k.event he hp e1⟩

/-- The event indicators of an instance that is set up. -/
theorem getInds_eq (o : Ode m) (hz : 0 < o.nz) {c : Comp F D} (h : o.Ready c) {l : List F} (hl : l.length = o.nz) :
    c.lift (m.getEventIndicators c.ctx c.mv (some l) c.nz) =
      .ret ({ c with mv := { c.mv with data := o.calc' c.mv.data, isDirtyValues := false } }, .OK,
        some (o.inds c.mv.data)) := by
  conv => lhs; rw [o.getInds hz, h.nz hz]
  have := putVector_eq (ctx := c.ctx) (mv := c.mv)
    (mv' := { c.mv with data := o.calc' c.mv.data, isDirtyValues := false })
    (l := l) (vs := o.inds c.mv.data) (by rw [o.lenZ, hl]; exact Nat.le_refl _)
  rw [o.lenZ] at this
  rw [this, List.drop_eq_nil_of_le (by omega), List.append_nil]
  exact lift_eq_ret.2 ⟨_, rfl, rfl⟩

/-- The internal handling of an event. -/
theorem Keeps.internal (k : o.Keeps P) (hm : OkOrError m) {eu} (he : m.eventUpdate = some eu) {c c' : Comp F D}
    (h : o.Ready c) (hp : P c.mv.data)
    (e : FMI3.internalEvent m eu c .OK () (fun c st => .ret (c, st, ())) = .ret (c', .OK, ())) :
    o.Ready c' ∧ P c'.mv.data := by
  rcases FMI3.internalEvent_eq_ret hm he e with ⟨-, c1, e1, h2⟩ | ⟨h, -⟩
  · obtain ⟨h1, hp1⟩ := k.lift h hp he e1
    rcases h2 with ⟨-, rfl⟩ | ⟨hz, c2, p, e2, rfl⟩
    · exact ⟨h1, hp1⟩
    · rw [o.maxNZ] at hz
      rw [o.getInds_eq hz h1 (by rw [h1.lens.prez, o.maxNZ])] at e2
      cases e2
      exact ⟨⟨⟨h1.lens.z, by simp [o.lenZ, o.maxNZ], h1.lens.x, h1.lens.dx⟩, h1.nx, h1.nz⟩, (k.calc _).2 hp1⟩
  · cases h

end Ode

namespace FMI2
variable {o : Ode m} {P : D → Prop}

theorem iter_keeps (k : o.Keeps P) (hm : OkOrError m) {c c' : Comp F D} (h : o.Ready c) (hp : P c.mv.data) {b}
    (e : iter m c = .ret (c', .OK, b)) : o.Ready c' ∧ P c'.mv.data := by
  rcases iter_eq_ret hm e with ⟨-, c1, se, te, e1, h1⟩ | ⟨h, -⟩
  · obtain ⟨h2, hp2⟩ := k.fixedStep h hp e1
    rcases h1 with ⟨rfl, -⟩ | ⟨eu, he, -, e2⟩
    · exact ⟨h2, hp2⟩
    · exact k.lift h2 hp2 he e2
  · cases h

theorem Loop.keeps (k : o.Keeps P) (hm : OkOrError m) {next : F} {c c' : Comp F D} {n s}
    (h : Loop m next c n c' s) (hs : s ≠ .Error) (hr : o.Ready c) (hp : P c.mv.data) : o.Ready c' ∧ P c'.mv.data := by
  induction h with
  | done => exact ⟨⟨⟨hr.lens.z, hr.lens.prez, hr.lens.x, hr.lens.dx⟩, hr.nx, hr.nz⟩, hp⟩
  | step _ e _ _ ih =>
    obtain ⟨h1, h2⟩ := iter_keeps k hm hr hp e
    exact ih hs h1 h2
  | discard _ e => exact iter_keeps k hm hr hp e
  | error => exact absurd rfl hs

/-- Calls that do not interfere keep `P`. -/
theorem step_keeps (k : o.Keeps P) (hm : RefFMU2 m) (hr : m.ReadsUpTo o.calc') {fuel : Nat} {t : IType}
    {w w' : World F D} {op s out} (h : Reachable m t w) (hop : ¬ Interferes op) (hp : P w.inst.mv.data)
    (e : step m fuel w op = .ret (w', s, out)) (hs : s ≠ .Error) : P w'.inst.mv.data := by
  have hk := hm.eff.okOrError
  by_cases hd : op.fn = .doStep
  · cases op <;> simp only [Op.fn, reduceCtorEq] at hd
    obtain ⟨hst, -, n, hnf, hl⟩ := doStep_loop hk e hs
    obtain ⟨hl', hi⟩ := h.ready o hm
    exact (hl.keeps k hk hs ((Ode.conf_not_early hi hst).ready hl') hp).2
  by_cases hn : op.fn = .newDiscreteStates
  · cases op <;> simp only [Op.fn, reduceCtorEq] at hn
    next info =>
    simp only [step, World.run] at e
    obtain ⟨⟨c1, s1, o1⟩, e1, e⟩ := Outcome.bind_eq_ret.1 e
    cases e
    simp only [newDiscreteStates, begin, beginFunction] at e1
    split at e1
    · cases he : m.eventUpdate with
      | none =>
        rw [he] at e1
        cases info with
        | none => cases e1
        | some _ => cases e1; exact hp
      | some eu =>
        rw [he] at e1
        simp only [call] at e1
        obtain ⟨⟨c2, s2, u⟩, e2, e1⟩ := Outcome.bind_eq_ret.1 e1
        obtain ⟨mv, e3, rfl⟩ := lift_eq_ret.1 e2
        have := k.event he hp e3
        rcases hk _ _ _ _ _ (.event he e3) with rfl | rfl
        · cases info with
          | none => cases e1
          | some _ => cases e1; exact this
        · cases e1; exact this
    · cases e1; exact absurd rfl hs
  · exact k.of_calc (step_passive hm.eff hr (not_notPassive hop hd fun h => absurd h hn) _ e).data hp

theorem run_keeps (k : o.Keeps P) (hm : RefFMU2 m) (hr : m.ReadsUpTo o.calc') {fuel : Nat} {t : IType} :
    ∀ (ops : List (Op F)) {w w' : World F D} {outs}, Reachable m t w → (∀ op ∈ ops, ¬ Interferes op) →
    P w.inst.mv.data → run m fuel w ops = .ret (w', outs) → (∀ p ∈ outs, p.1 ≠ .Error) → P w'.inst.mv.data := by
  intro ops
  induction ops with
  | nil => intro w w' outs _ _ hp e _; cases e; exact hp
  | cons op ops ih =>
    intro w w' outs h hops hp e hs
    unfold run at e
    obtain ⟨⟨w1, s, x⟩, e1, e⟩ := Outcome.bind_eq_ret.1 e
    obtain ⟨⟨w2, l⟩, e2, e⟩ := Outcome.bind_eq_ret.1 e
    cases e
    exact ih (Reachable.call hm.eff.okOrError h e1) (fun op h => hops op (by simp [h]))
      (step_keeps k hm hr h (hops op (by simp)) hp e1 (hs _ (List.mem_cons_self ..))) e2 (fun p h => hs p (by simp [h]))

end FMI2

namespace FMI3
variable {o : Ode m} {P : D → Prop}

theorem iter_keeps (k : o.Keeps P) (hm : OkOrError m) {c c' : Comp F D} (h : o.Ready c) (hp : P c.mv.data) {ehn b}
    (e : iter m c ehn = .ret (c', .OK, b)) : o.Ready c' ∧ P c'.mv.data := by
  rcases iter_eq_ret hm e with ⟨-, c0, ehn0, c1, se, te, e0, e1, h1⟩ | ⟨h, -⟩
  · have h0 : o.Ready c0 ∧ P c0.mv.data := by
      unfold pendingEvent at e0
      cases he : m.eventUpdate with
      | none => rw [he] at e0; cases e0; exact ⟨h, hp⟩
      | some eu =>
        rw [he] at e0
        simp only at e0
        split at e0
        · obtain ⟨⟨c2, s, u⟩, e2, e0⟩ := Outcome.bind_eq_ret.1 e0
          cases e0
          exact k.lift h hp he e2
        · cases e0; exact ⟨h, hp⟩
    obtain ⟨h2, hp2⟩ := k.fixedStep h0.1 h0.2 e1
    rcases h1 with ⟨-, rfl, -⟩ | ⟨-, -, -, rfl, -⟩ | ⟨eu, he, -, -, e2, -⟩
    · exact ⟨h2, hp2⟩
    · exact ⟨h2, hp2⟩
    · exact k.internal hm he h2 hp2 e2
  · cases h

theorem Loop.keeps (k : o.Keeps P) (hm : OkOrError m) {next : F} {c c' : Comp F D} {ehn n s e r}
    (h : Loop m next c ehn n c' s e r) (hs : s ≠ .Error) (hr : o.Ready c) (hp : P c.mv.data) :
    o.Ready c' ∧ P c'.mv.data := by
  induction h with
  | done => exact ⟨hr, hp⟩
  | step _ e _ ih =>
    obtain ⟨h1, h2⟩ := iter_keeps k hm hr hp e
    exact ih hs h1 h2
  | leave _ e => exact iter_keeps k hm hr hp e
  | error => exact absurd rfl hs

/-- Calls that do not interfere keep `P`. -/
theorem step_keeps (k : o.Keeps P) (hm : RefFMU3 m) (hr : m.ReadsUpTo o.calc') {fuel : Nat} {t : IType}
    {w w' : World F D} {op out} (h : ReachableProper m t w) (hop : ¬ Interferes op) (hp : P w.inst.mv.data)
    (e : step m fuel w op = .ret (w', .OK, out)) : P w'.inst.mv.data := by
  have hk := hm.eff.okOrError
  by_cases hd : op.fn = .doStep
  · cases op <;> simp only [Op.fn, reduceCtorEq] at hd
    obtain ⟨hst, n, c', ehn, r, -, hl, rfl, -⟩ := doStep_loop hk e
    simp only [Spec.allowedIn, List.mem_cons, List.not_mem_nil, or_false] at hst
    obtain ⟨hl', hi⟩ := h.ready o hm
    exact (hl.keeps k hk (by simp) ((Ode.conf_not_early hi hst).ready hl') hp).2
  by_cases hn : op.fn = .updateDiscreteStates
  · cases op <;> simp only [Op.fn, reduceCtorEq] at hn
    simp only [step, World.run] at e
    obtain ⟨⟨c1, s1, o1⟩, e1, e⟩ := Outcome.bind_eq_ret.1 e
    cases e
    simp only [updateDiscreteStates, begin, beginFunction] at e1
    split at e1
    · cases he : m.eventUpdate with
      | none => rw [he] at e1; cases e1; exact hp
      | some eu =>
        rw [he] at e1
        simp only [call] at e1
        obtain ⟨⟨c2, s2, u⟩, e2, e1⟩ := Outcome.bind_eq_ret.1 e1
        obtain ⟨mv, e3, rfl⟩ := lift_eq_ret.1 e2
        have := k.event he hp e3
        rcases hk _ _ _ _ _ (.event he e3) with rfl | rfl <;> cases e1
        exact this
    · cases e1
  · exact k.of_calc (step_passive hm.eff hr (not_notPassive hop hd fun h => absurd h hn) _ e).data hp

theorem run_keeps (k : o.Keeps P) (hm : RefFMU3 m) (hr : m.ReadsUpTo o.calc') {fuel : Nat} {t : IType} :
    ∀ (ops : List (Op F)) {w w' : World F D} {outs}, ReachableProper m t w → Started w.inst →
    (∀ op ∈ ops, ¬ Interferes op) →
    P w.inst.mv.data → run m fuel w ops = .ret (w', outs) → (∀ p ∈ outs, p.1 = .OK) → P w'.inst.mv.data := by
  intro ops
  induction ops with
  | nil => intro w w' outs _ _ _ hp e _; cases e; exact hp
  | cons op ops ih =>
    intro w w' outs h hst hops hp e hs
    unfold run at e
    obtain ⟨⟨w1, s, x⟩, e1, e⟩ := Outcome.bind_eq_ret.1 e
    obtain ⟨⟨w2, l⟩, e2, e⟩ := Outcome.bind_eq_ret.1 e
    cases e
    cases hs _ (List.mem_cons_self ..)
    have hop := hops op (by simp)
    exact ih (ReachableProper.call h e1 fun _ h' => hst (by simp [h']))
      (step_started hm.eff.okOrError hst (fun h => hop (.of_restarts h)) _ e1) (fun op h => hops op (by simp [h]))
      (step_keeps k hm hr h hop hp e1) e2 (fun p h => hs p (by simp [h]))

end FMI3
end Verif
