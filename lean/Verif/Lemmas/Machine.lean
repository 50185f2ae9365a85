import Verif.Lemmas.DataInv
import Verif.Lemmas.Readable
import Verif.Spec.Handled
import Mathlib.Logic.Function.Iterate

/-!
# Co-Simulation as an abstract machine

`Follows o tick R P`: solver steps and events of the FMU implement the function `tick` on abstract states;
`R s c`: the instance is in the abstract state `s`; `P s c`: it will be after its pending event was handled.
`run_follows`: calls that do not interfere make a number of such steps, in FMI 2.0 and, whether
events are handled by the FMU or by the importer, in FMI 3.0.
-/

set_option linter.unusedSectionVars false

namespace Verif
variable {F D : Type} [Arith F] [HasInf F] {m : Model F D}

/-- `c'` differs from `c` in nothing that concerns the simulation. -/
structure Alike (o : Ode m) (c c' : Comp F D) : Prop where
  kept : Kept o.calc' c c'
  prez : c'.prez = c.prez ∨ 0 < o.nz ∧ c'.prez = o.inds c.mv.data
  start : c'.startTime = c.startTime
  nSteps : c'.nSteps = c.nSteps
  time : c'.ctx.time = c.ctx.time

structure Follows (o : Ode m) {S : Type} (tick : S → S) (R P : S → Comp F D → Prop) : Prop where
  step : ∀ {s c c' se te}, o.Ready c → R s c → doFixedStep m c = .ret (c', .OK, some (se, te)) →
    if (se || te) && m.eventUpdate.isSome then P (tick s) c' else R (tick s) c'
  event : ∀ {s c c' eu st}, P s c → m.eventUpdate = some eu → c.lift (eu c.ctx c.mv) = .ret (c', st, ()) → R s c'
  update : ∀ {s c c' eu}, R s c → m.eventUpdate = some eu → c.lift (eu c.ctx c.mv) = .ret (c', .OK, ()) → ∃ s', R s' c'
  keep : ∀ {s c c'}, R s c → Alike o c c' → R s c'
  keepP : ∀ {s c c'}, P s c → Alike o c c' → P s c'

/-- What `configurate` does to the event indicators. -/
theorem Ode.configurate_prez (o : Ode m) {c c' : Comp F D} (hl : c.Lens m) {b}
    (h : configurate m c = .ret (c', .OK, b)) :
    (o.nz = 0 ∧ c'.prez = c.prez) ∨ 0 < o.nz ∧ c'.prez = o.inds c.mv.data ∧ o.calc' c'.mv.data = o.calc' c.mv.data := by
  unfold configurate at h
  simp only at h
  split at h
  · next hz =>
    have hz : 0 < o.nz := by have := o.maxNZ; omega
    refine .inr ⟨hz, ?_⟩
    rcases callCo_eq_ret.1 h with ⟨c1, x, e1, h⟩ | ⟨c1, s1, a, e1, hs, h⟩
    · obtain ⟨mv, e1, rfl⟩ := lift_eq_ret.1 e1
      rw [o.getInds hz, o.numZ] at e1
      have := putVector_eq (ctx := c.ctx) (mv := c.mv)
        (mv' := { c.mv with data := o.calc' c.mv.data, isDirtyValues := false })
        (l := c.prez) (vs := o.inds c.mv.data) (by rw [o.lenZ, hl.prez, o.maxNZ]; exact Nat.le_refl _)
      rw [o.lenZ, List.drop_eq_nil_of_le (by rw [hl.prez, o.maxNZ]; exact Nat.le_refl _), List.append_nil] at this
      simp only at e1
      rw [this] at e1
      cases e1
      cases h
      split <;> exact ⟨rfl, o.calc_calc _⟩
    · cases h; exact absurd rfl hs
  · next hz =>
    refine .inl ⟨by have := o.maxNZ; omega, ?_⟩
    cases h
    split <;> rfl

theorem Alike.prez_inds {o : Ode m} {c c' : Comp F D} (h : Kept o.calc' c c') :
    o.inds c'.mv.data = o.inds c.mv.data := by
  rw [← o.inds_calc, h.data, o.inds_calc]

namespace FMI2
variable {o : Ode m} {S : Type} {tick : S → S} {R P : S → Comp F D → Prop}

theorem iter_follows (k : Follows o tick R P) (hm : OkOrError m) {s : S} {c c' : Comp F D} (h : o.Ready c) (hr : R s c) {b}
    (e : iter m c = .ret (c', .OK, b)) : o.Ready c' ∧ R (tick s) c' := by
  rcases iter_eq_ret hm e with ⟨-, c1, se, te, e1, h1⟩ | ⟨h, -⟩
  · have h2 := k.step h hr e1
    obtain ⟨c2, e2, hr2, -⟩ := o.fixedStep_eq h
    rw [e1] at e2
    cases e2
    rcases h1 with ⟨rfl, hn⟩ | ⟨eu, he, ht, e2⟩
    · refine ⟨hr2, ?_⟩
      rwa [if_neg (by rcases hn with hn | hn <;> simp [hn])] at h2
    · rw [if_pos (by simp [ht, he])] at h2
      refine ⟨?_, k.event h2 he e2⟩
      obtain ⟨mv, -, rfl⟩ := lift_eq_ret.1 e2
      exact hr2.lift mv
  · cases h

theorem Loop.follows (k : Follows o tick R P) (hm : OkOrError m) {next : F} {c c' : Comp F D} {n st}
    (h : Loop m next c n c' st) (hs : st ≠ .Error) {s : S} (hr : o.Ready c) (hp : R s c) :
    o.Ready c' ∧ R (tick^[n] s) c' := by
  induction h generalizing s with
  | done =>
    exact ⟨⟨⟨hr.lens.z, hr.lens.prez, hr.lens.x, hr.lens.dx⟩, hr.nx, hr.nz⟩,
      k.keep hp ⟨⟨rfl, rfl, rfl, rfl, rfl, rfl⟩, .inl rfl, rfl, rfl, rfl⟩⟩
  | step _ e _ _ ih =>
    obtain ⟨h1, h2⟩ := iter_follows k hm hr hp e
    exact ih hs h1 h2
  | discard _ e => exact iter_follows k hm hr hp e
  | error => exact absurd rfl hs

/-- The initialisation of a Co-Simulation instance is over. -/
def Started (c : Comp F D) : Prop := c.ctx.state = .stepComplete ∨ c.ctx.state = .terminated

theorem Started.callInv (m : Model F D) :
    CallInvX (fun fn => fn = .reset ∨ fn = .setFMUstate) (fun _ => True) m (fun _ => True) Started where
  lift h _ _ := h
  log _ h := h
  dirty _ h := h
  calls _ _ _ _ := trivial
  step _ :=
    { lift := fun h _ _ => h
      log := fun _ h => h
      dirty := fun _ h => h
      adv := fun h _ => h
      iu := fun h _ => h
      ncp := fun _ h => h
      x := fun _ h => h
      dx := fun _ h => h
      z := fun _ h => h
      prez := fun _ h => h }
  nx _ _ h := h
  nz _ _ h := h
  prez _ _ _ h := h
  term _ := .inr rfl
  setup _ _ _ _ h _ := h
  enterInit _ _ h e := by rcases h with h | h <;> rw [h] at e <;> cases e
  reset h := absurd (.inl rfl) h
  restore h := absurd (.inr rfl) h
  enterEvent _ _ h e := by rcases h with h | h <;> rw [h] at e <;> simp at e
  enterCT _ _ h e := by rcases h with h | h <;> rw [h] at e <;> cases e
  setTime _ _ _ h _ := h
  exitInit _ c h e := by rcases h with h | h <;> rw [h] at e <;> cases e

theorem step_started (hm : OkOrError m) {fuel : Nat} {w : World F D} {op : Op F}
    (h : Started w.inst) (hop : ¬ Interferes op) :
    (step m fuel w op).All fun x => Started x.1.inst :=
  step_keepX hm (Started.callInv m) (fun _ _ _ _ => trivial) h (fun _ _ _ _ h => h)
    (fun h => hop (by rcases h with h | h <;> simp [Interferes, h]))

theorem prez_callInv (m : Model F D) (p : List F) :
    CallInvX (fun fn => fn ∈ [Fn.doStep, .exitInitializationMode, .reset, .setFMUstate])
      (fun _ => True) m (fun _ => True) fun c => c.prez = p where
  lift h _ _ := h
  log _ h := by unfold Comp.logError logError; split <;> exact h
  dirty _ h := h
  calls _ _ _ _ := trivial
  step h := absurd (by simp) h
  nx h := absurd (by simp) h
  nz h := absurd (by simp) h
  prez h := absurd (by simp) h
  term h := h
  setup _ _ _ _ h _ := h
  enterInit _ _ h _ := h
  reset h := absurd (by simp) h
  restore h := absurd (by simp) h
  enterEvent _ _ h _ := h
  enterCT _ _ h _ := h
  setTime _ _ _ h _ := h
  exitInit h := absurd (by simp) h

/-- Calls that do not interfere and make no step change nothing that concerns the simulation. -/
theorem step_alike (o : Ode m) (he : m.Eff) (hr : m.ReadsUpTo o.calc') {fuel : Nat} {w w' : World F D} {op s out}
    (hs : Started w.inst) (hop : ¬ Interferes op) (hd : op.fn ≠ .doStep) (e : step m fuel w op = .ret (w', s, out))
    (hse : s ≠ .Error) : Alike o w.inst w'.inst := by
  have hno : ∀ op' : Op F, op'.fn = .newDiscreteStates ∨ op'.fn = .exitInitializationMode → op ≠ op' := by
    rintro op h rfl
    obtain ⟨w1, e1, -⟩ := refused m fuel w op (by
      rcases h with h | h <;> rw [h] <;> rcases hs with hs | hs <;> rw [hs] <;> simp [Spec.allowedIn])
    rw [e1] at e
    cases e
    exact hse rfl
  have ht := passive_times he.okOrError hop hd e
  refine ⟨step_passive he hr (not_notPassive hop hd fun h => absurd rfl (hno op (.inl h))) _ e, .inl ?_,
    congrArg Times.startTime ht, congrArg Times.nSteps ht, congrArg Times.time ht⟩
  refine step_keepX he.okOrError (prez_callInv m w.inst.prez) (fun _ _ _ _ => trivial) rfl (fun _ _ _ _ h => h) ?_ _ e
  intro h
  simp only [List.mem_cons, List.not_mem_nil, or_false] at h
  rcases h with h | h | h | h
  · exact hd h
  · exact hno op (.inr h) rfl
  · exact hop (by simp [Interferes, h])
  · exact hop (by simp [Interferes, h])

/-- Calls that do not interfere make a number of steps of the machine. -/
theorem run_follows (k : Follows o tick R P) (hm : RefFMU2 m) (hr : m.ReadsUpTo o.calc')
    {fuel : Nat} {t : IType} : ∀ (ops : List (Op F)) {w w' : World F D} {outs} {s : S}, Reachable m t w →
    Started w.inst → (∀ op ∈ ops, ¬ Interferes op) → R s w.inst → run m fuel w ops = .ret (w', outs) →
    (∀ p ∈ outs, p.1 ≠ .Error) →
    ∃ n ≤ fuel * ops.length, R (tick^[n] s) w'.inst ∧ Advanced m.h w.inst.times w'.inst.times n := by
  have hk := hm.eff.okOrError
  intro ops
  induction ops with
  | nil => intro w w' outs s _ _ _ hp e _; cases e; exact ⟨0, Nat.zero_le _, hp, .refl _ _⟩
  | cons op ops ih =>
    intro w w' outs s h hst hops hp e hs
    unfold run at e
    obtain ⟨⟨w1, st, x⟩, e1, e⟩ := Outcome.bind_eq_ret.1 e
    obtain ⟨⟨w2, l⟩, e2, e⟩ := Outcome.bind_eq_ret.1 e
    cases e
    have h1 := Reachable.call hk h e1
    have hop := hops op (by simp)
    have hse := hs _ (List.mem_cons_self ..)
    have hst1 := step_started hk hst hop _ e1
    suffices ∃ n ≤ fuel, R (tick^[n] s) w1.inst ∧ Advanced m.h w.inst.times w1.inst.times n by
      obtain ⟨n, hnf, hd1, ha1⟩ := this
      obtain ⟨j, hj, hd, ha⟩ := ih h1 hst1 (fun op h => hops op (by simp [h])) hd1 e2 (fun p h => hs p (by simp [h]))
      refine ⟨n + j, ?_, ?_, ha1.trans ha⟩
      · simp only [List.length_cons, Nat.mul_succ]; omega
      · rw [Nat.add_comm, Function.iterate_add_apply]; exact hd
    by_cases hdo : op.fn = .doStep
    · cases op <;> simp only [Op.fn, reduceCtorEq] at hdo
      obtain ⟨hst, -, n, hnf, hl⟩ := doStep_loop hk e1 hse
      obtain ⟨hl', hi⟩ := h.ready o hm
      obtain ⟨k', -, hk', ha1⟩ := hl.advanced hk
      cases hk' hse
      exact ⟨n, hnf, (hl.follows k hk hse ((Ode.conf_not_early hi hst).ready hl') hp).2, ha1⟩
    · refine ⟨0, Nat.zero_le _, k.keep hp (step_alike o hm.eff hr hst hop hdo e1 hse), ?_⟩
      rw [passive_times hk hop hdo e1]
      exact .refl _ _

/-- At the end of the initialisation the event indicators have been evaluated. -/
theorem exit_prez (o : Ode m) (hm : OkOrError m) {fuel : Nat} {w w' : World F D} (hl : w.inst.Lens m) (hz : 0 < o.nz) {out}
    (e : step m fuel w .exitInitializationMode = .ret (w', .OK, out)) : w'.inst.prez = o.inds w'.inst.mv.data := by
  simp only [step, World.run] at e
  obtain ⟨⟨c1, s1, o1⟩, e1, e⟩ := Outcome.bind_eq_ret.1 e
  cases e
  have key : ∀ c : Comp F D, c.Lens m → call .OK (configurate m c) id (fun c st _ => .ret (c, st, ())) = .ret (c1, .OK, o1) →
      c1.prez = o.inds c1.mv.data := by
    intro c hl e1
    unfold call at e1
    obtain ⟨⟨c2, s2, u⟩, e2, e1⟩ := Outcome.bind_eq_ret.1 e1
    cases s2 <;> simp only [Status.rank, gt_iff_lt, Nat.lt_irrefl, if_false] at e1 <;> cases e1
    rcases o.configurate_prez hl e2 with ⟨h, -⟩ | ⟨-, h2, h3⟩
    · omega
    · rw [h2, ← o.inds_calc, ← h3, o.inds_calc]
  simp only [exitInitializationMode, begin, beginFunction] at e1
  split at e1
  · unfold refresh at e1
    split at e1
    · rw [call] at e1
      obtain ⟨⟨c2, s2, u⟩, e2, e1⟩ := Outcome.bind_eq_ret.1 e1
      obtain ⟨mv, e3, rfl⟩ := lift_eq_ret.1 e2
      rcases hm _ _ _ _ _ (.calc e3) with rfl | rfl
      · refine key _ ?_ e1; exact ⟨hl.z, hl.prez, hl.x, hl.dx⟩
      · cases e1
    · refine key _ ?_ e1; exact ⟨hl.z, hl.prez, hl.x, hl.dx⟩
  · cases e1

end FMI2

namespace FMI3
variable {o : Ode m} {S : Type} {tick : S → S} {R P : S → Comp F D → Prop}

/-- The instance is in the abstract state `s`, or will be after the pending event was handled. -/
def Pending (m : Model F D) (R P : S → Comp F D → Prop) (p : Bool) (s : S) (c : Comp F D) : Prop :=
  if p then m.eventUpdate.isSome ∧ P s c else R s c

theorem Pending.keep (k : Follows o tick R P) {p : Bool} {s : S} {c c' : Comp F D} (h : Pending m R P p s c)
    (a : Alike o c c') : Pending m R P p s c' := by
  cases p
  · exact k.keep (show R s c from h) a
  · exact ⟨(show _ ∧ _ from h).1, k.keepP (show _ ∧ _ from h).2 a⟩

theorem iter_follows (k : Follows o tick R P) (hm : OkOrError m) {s : S} {c c' : Comp F D} {ehn ehn' l} (h : o.Ready c)
    (hr : Pending m R P ehn s c) (e : iter m c ehn = .ret (c', .OK, (ehn', l))) :
    o.Ready c' ∧ Pending m R P ehn' (tick s) c' := by
  rcases iter_eq_ret hm e with ⟨-, c0, ehn0, c1, se, te, e0, e1, h1⟩ | ⟨h, -⟩
  · have h0 : o.Ready c0 ∧ R s c0 ∧ ehn0 = false := by
      unfold pendingEvent at e0
      unfold Pending at hr
      cases he : m.eventUpdate with
      | none =>
        rw [he] at e0 hr
        cases e0
        split at hr
        · simp at hr
        · next hf => exact ⟨h, hr, by simpa using hf⟩
      | some eu =>
        rw [he] at e0
        simp only at e0
        split at e0
        · next hp =>
          rw [if_pos hp] at hr
          obtain ⟨⟨c2, s, u⟩, e2, e0⟩ := Outcome.bind_eq_ret.1 e0
          cases e0
          refine ⟨?_, k.event hr.2 he e2, rfl⟩
          obtain ⟨mv, -, rfl⟩ := lift_eq_ret.1 e2
          exact h.lift mv
        · next hp =>
          rw [if_neg hp] at hr
          cases e0
          exact ⟨h, hr, by simpa using hp⟩
    obtain ⟨h0, hr0, rfl⟩ := h0
    have h2 := k.step h0 hr0 e1
    obtain ⟨c2, e2, hr2, -⟩ := o.fixedStep_eq h0
    rw [e1] at e2
    cases e2
    rcases h1 with ⟨hn, rfl, hb⟩ | ⟨he, ht, hemu, rfl, hb⟩ | ⟨eu, he, ht, hemu, e2, hb⟩
    · rw [if_neg (by rcases hn with hn | hn <;> simp [hn])] at h2
      cases hb
      exact ⟨hr2, h2⟩
    · rw [if_pos (by simp [ht, he])] at h2
      obtain ⟨hb, -⟩ := Prod.mk.inj hb
      subst hb
      exact ⟨hr2, by simpa [Option.isSome_iff_ne_none] using he, h2⟩
    · rw [if_pos (by simp [ht, he])] at h2
      obtain ⟨hb, -⟩ := Prod.mk.inj hb
      subst hb
      show _ ∧ R _ _
      rcases FMI3.internalEvent_eq_ret hm he e2 with ⟨-, c3, e3, h3⟩ | ⟨h, -⟩
      · have h4 := k.event h2 he e3
        have h5 : o.Ready c3 := by
          obtain ⟨mv, -, rfl⟩ := lift_eq_ret.1 e3
          exact hr2.lift mv
        rcases h3 with ⟨-, rfl⟩ | ⟨hz, c4, p, e4, rfl⟩
        · exact ⟨h5, h4⟩
        · rw [o.maxNZ] at hz
          rw [o.getInds_eq hz h5 (by rw [h5.lens.prez, o.maxNZ])] at e4
          cases e4
          exact ⟨⟨⟨h5.lens.z, by simp [o.lenZ, o.maxNZ], h5.lens.x, h5.lens.dx⟩, h5.nx, h5.nz⟩,
            k.keep h4 ⟨⟨o.calc_calc _, rfl, rfl, rfl, rfl, rfl⟩, .inr ⟨hz, rfl⟩, rfl, rfl, rfl⟩⟩
      · cases h
  · cases h

theorem Loop.follows (k : Follows o tick R P) (hm : OkOrError m) {next : F} {c c' : Comp F D} {ehn n st e r}
    (h : Loop m next c ehn n c' st e r) (hs : st ≠ .Error) {s : S} (hr : o.Ready c) (hp : Pending m R P ehn s c) :
    o.Ready c' ∧ Pending m R P e (tick^[n] s) c' := by
  induction h generalizing s with
  | done => exact ⟨hr, hp⟩
  | step _ e _ ih =>
    obtain ⟨h1, h2⟩ := iter_follows k hm hr hp e
    exact ih hs h1 h2
  | leave _ e => exact iter_follows k hm hr hp e
  | error => exact absurd rfl hs

theorem prez_callInv (m : Model F D) (p : List F) :
    CallInvX (fun fn => fn ∈ [Fn.doStep, .exitInitializationMode, .exitConfigurationMode, .reset, .setFMUState])
      (fun _ => True) m (fun _ => True) fun c => c.prez = p where
  lift h _ _ := h
  log _ h := by unfold Comp.logError logError; split <;> exact h
  dirty _ h := h
  calls _ _ _ _ := trivial
  step h := absurd (by simp) h
  nx h := absurd h (by simp)
  nz h := absurd h (by simp)
  prez h := absurd h (by simp)
  term h := h
  enterInit _ _ _ _ h _ := h
  reset h := absurd (by simp) h
  restore h := absurd (by simp) h
  enterEvent _ _ h _ := h
  enterCT _ _ h _ := h
  setTime _ _ _ h _ := h
  enterConfig _ _ h _ := h
  exitConfig h := absurd (by simp) h
  enterStep _ _ h _ := h
  exitInit h := absurd (by simp) h

theorem exitConfig_prez (o : Ode m) {fuel : Nat} {w w' : World F D} (hl : w.inst.Lens m) {out}
    (e : step m fuel w .exitConfigurationMode = .ret (w', .OK, out)) :
    w'.inst.prez = w.inst.prez ∨ 0 < o.nz ∧ w'.inst.prez = o.inds w.inst.mv.data := by
  simp only [step, World.run] at e
  obtain ⟨⟨c1, s1, o1⟩, e1, e⟩ := Outcome.bind_eq_ret.1 e
  cases e
  simp only [exitConfigurationMode, begin, beginFunction] at e1
  split at e1
  · split at e1
    · unfold callLast call at e1
      obtain ⟨⟨c2, s2, u⟩, e2, e1⟩ := Outcome.bind_eq_ret.1 e1
      cases s2 <;> simp only [Status.rank, gt_iff_lt, Nat.lt_irrefl, if_false] at e1 <;> cases e1
      rcases o.configurate_prez (c := w.inst.setState (stateAfterConfig w.inst)) ⟨hl.z, hl.prez, hl.x, hl.dx⟩ e2 with
        ⟨-, h⟩ | ⟨h1, h2, -⟩
      · exact .inl h
      · exact .inr ⟨h1, h2⟩
    · cases e1; exact .inl rfl
  · cases e1

/-- Calls that do not interfere, make no step and handle no event change nothing that concerns the
simulation. -/
theorem step_alike (o : Ode m) (he : m.Eff) (hr : m.ReadsUpTo o.calc') {fuel : Nat} {w w' : World F D} {op out}
    (hl : w.inst.Lens m) (hs : Started w.inst) (hop : ¬ Interferes op) (hd : op.fn ≠ .doStep)
    (hu : op.fn = .updateDiscreteStates → m.eventUpdate = none)
    (e : step m fuel w op = .ret (w', .OK, out)) : Alike o w.inst w'.inst := by
  have ht := passive_times he.okOrError hop hd e
  refine ⟨step_passive he hr (not_notPassive hop hd hu) _ e, ?_,
    congrArg Times.startTime ht, congrArg Times.nSteps ht, congrArg Times.time ht⟩
  by_cases hc : op.fn = .exitConfigurationMode
  · cases op <;> simp only [Op.fn, reduceCtorEq] at hc
    exact exitConfig_prez o hl e
  left
  refine step_keepX he.okOrError (prez_callInv m w.inst.prez) (fun _ _ _ _ => trivial) rfl (fun _ _ _ _ h => h) ?_ _ e
  intro h
  simp only [List.mem_cons, List.not_mem_nil, or_false] at h
  rcases h with h | h | h | h | h
  · exact hd h
  · cases op <;> simp only [Op.fn, reduceCtorEq] at h
    obtain ⟨w1, e1, -⟩ := refused m fuel w .exitInitializationMode (by simp) (by
      simp only [Started, List.mem_cons, List.not_mem_nil, or_false, not_or] at hs
      simp only [Op.fn, Spec.allowedIn, List.mem_cons, List.not_mem_nil, or_false]
      exact hs.2.2)
    rw [e1] at e
    cases e
  · exact hc h
  · exact hop (by simp [Interferes, h])
  · exact hop (by simp [Interferes, h])

/-- Handling an event. -/
theorem update_event {eu} (hm : OkOrError m) (he : m.eventUpdate = some eu) {fuel : Nat} {w w' : World F D} {ev out}
    (e : step m fuel w (.updateDiscreteStates ev) = .ret (w', .OK, out)) :
    w.inst.lift (eu w.inst.ctx w.inst.mv) = .ret (w'.inst, .OK, ()) := by
  simp only [step, World.run] at e
  obtain ⟨⟨c1, s1, o1⟩, e1, e⟩ := Outcome.bind_eq_ret.1 e
  cases e
  simp only [updateDiscreteStates, begin, beginFunction] at e1
  split at e1
  · rw [he] at e1
    simp only [call] at e1
    obtain ⟨⟨c2, s2, u⟩, e2, e1⟩ := Outcome.bind_eq_ret.1 e1
    obtain ⟨mv, e3, rfl⟩ := lift_eq_ret.1 e2
    rcases hm _ _ _ _ _ (.event he e3) with rfl | rfl <;> cases e1
    exact e2
  · cases e1

/-- Calls that do not interfere, with an importer that handles the reported events, make a number of
steps of the machine. -/
theorem run_follows (k : Follows o tick R P) (hm : RefFMU3 m) (hr : m.ReadsUpTo o.calc')
    {fuel : Nat} {t : IType} : ∀ (ops : List (Op F)) {w w' : World F D} {outs} {s : S} {p p' : Bool}, ReachableProper m t w →
    Started w.inst → (∀ op ∈ ops, ¬ Interferes op) → Pending m R P p s w.inst → run m fuel w ops = .ret (w', outs) →
    (∀ p ∈ outs, p.1 = .OK) → Handled p ops outs p' →
    ReachableProper m t w' ∧ ∃ n ≤ fuel * ops.length, Pending m R P p' (tick^[n] s) w'.inst ∧
      Advanced m.h w.inst.times w'.inst.times n := by
  have hk := hm.eff.okOrError
  intro ops
  induction ops with
  | nil => intro w w' outs s p p' h _ _ hp e _ hh; cases e; cases hh; exact ⟨h, 0, Nat.zero_le _, hp, .refl _ _⟩
  | cons op ops ih =>
    intro w w' outs s p p' h hst hops hp e hs hh
    unfold run at e
    obtain ⟨⟨w1, st, x⟩, e1, e⟩ := Outcome.bind_eq_ret.1 e
    obtain ⟨⟨w2, l⟩, e2, e⟩ := Outcome.bind_eq_ret.1 e
    cases e
    cases hs _ (List.mem_cons_self ..)
    have hop := hops op (by simp)
    have h1 := ReachableProper.call h e1 fun _ h' => hst (by simp [h'])
    have hst1 := step_started hk hst (fun h => hop (.of_restarts h)) _ e1
    suffices ∃ q, Handled q ops l p' ∧ ∃ n ≤ fuel, Pending m R P q (tick^[n] s) w1.inst ∧
        Advanced m.h w.inst.times w1.inst.times n by
      obtain ⟨q, hq, n, hnf, hd1, ha1⟩ := this
      obtain ⟨hre, j, hj, hd, ha⟩ := ih h1 hst1 (fun op h => hops op (by simp [h])) hd1 e2
        (fun p h => hs p (by simp [h])) hq
      refine ⟨hre, n + j, ?_, ?_, ha1.trans ha⟩
      · simp only [List.length_cons, Nat.mul_succ]; omega
      · rw [Nat.add_comm, Function.iterate_add_apply]; exact hd
    by_cases hdo : op.fn = .doStep
    · cases op <;> simp only [Op.fn, reduceCtorEq] at hdo
      obtain ⟨rfl, hh⟩ := hh
      obtain ⟨hst, n, c', ehn, r, hnf, hl, rfl, rfl⟩ := doStep_loop hk e1
      simp only [Spec.allowedIn, List.mem_cons, List.not_mem_nil, or_false] at hst
      obtain ⟨hl', hi⟩ := h.ready o hm
      obtain ⟨k', -, hk', ha1⟩ := hl.advanced hk
      cases hk' (by simp)
      have := (hl.follows k hk (by simp) ((Ode.conf_not_early hi hst).ready hl') hp).2
      have hq : (Out.needsEvent (.step ⟨some ehn, some c'.mv.terminateSimulation,
        some (c'.earlyReturnAllowed && !r), some c'.ctx.time⟩) : Bool) = ehn := by cases ehn <;> rfl
      rw [hq] at hh
      exact ⟨ehn, hh, n, hnf, this.keep k ⟨⟨rfl, rfl, rfl, rfl, rfl, rfl⟩, .inl rfl, rfl, rfl, rfl⟩, ha1.of_eq rfl rfl rfl⟩
    by_cases hu : op.fn = .updateDiscreteStates
    · cases op <;> simp only [Op.fn, reduceCtorEq] at hu
      obtain ⟨rfl, hh⟩ := hh
      obtain ⟨he, hp⟩ := (show _ ∧ _ from hp)
      obtain ⟨eu, he⟩ := Option.isSome_iff_exists.1 he
      refine ⟨false, hh, 0, Nat.zero_le _, k.event hp he (update_event hk he e1), ?_⟩
      rw [passive_times hk hop hdo e1]
      exact .refl _ _
    · refine ⟨p, ?_, 0, Nat.zero_le _, hp.keep k
        (step_alike o hm.eff hr (h.ready o hm).1 hst hop hdo (fun h => absurd h hu) e1), ?_⟩
      · cases op <;> first | exact hh | exact absurd rfl hdo | exact absurd rfl hu
      · rw [passive_times hk hop hdo e1]
        exact .refl _ _

/-- At the end of the initialisation the event indicators have been evaluated. -/
theorem exit_prez (o : Ode m) (hm : OkOrError m) {fuel : Nat} {w w' : World F D} (hl : w.inst.Lens m) (hz : 0 < o.nz) {out}
    (e : step m fuel w .exitInitializationMode = .ret (w', .OK, out)) : w'.inst.prez = o.inds w'.inst.mv.data := by
  simp only [step, World.run] at e
  obtain ⟨⟨c1, s1, o1⟩, e1, e⟩ := Outcome.bind_eq_ret.1 e
  cases e
  have key : ∀ c : Comp F D, c.Lens m → call .OK (configurate m c) id (fun c st _ => .ret (c, st, ())) = .ret (c1, .OK, o1) →
      c1.prez = o.inds c1.mv.data := by
    intro c hl e1
    unfold call at e1
    obtain ⟨⟨c2, s2, u⟩, e2, e1⟩ := Outcome.bind_eq_ret.1 e1
    cases s2 <;> simp only [Status.rank, gt_iff_lt, Nat.lt_irrefl, if_false] at e1 <;> cases e1
    rcases o.configurate_prez hl e2 with ⟨h, -⟩ | ⟨-, h2, h3⟩
    · omega
    · rw [h2, ← o.inds_calc, ← h3, o.inds_calc]
  simp only [exitInitializationMode, begin, beginFunction] at e1
  split at e1
  · unfold refresh at e1
    split at e1
    · rw [call] at e1
      obtain ⟨⟨c2, s2, u⟩, e2, e1⟩ := Outcome.bind_eq_ret.1 e1
      obtain ⟨mv, e3, rfl⟩ := lift_eq_ret.1 e2
      rcases hm _ _ _ _ _ (.calc e3) with rfl | rfl
      · refine key _ ?_ e1; exact ⟨hl.z, hl.prez, hl.x, hl.dx⟩
      · cases e1
    · refine key _ ?_ e1; exact ⟨hl.z, hl.prez, hl.x, hl.dx⟩
  · cases e1

end FMI3
end Verif
