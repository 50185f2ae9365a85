import Verif.Lemmas.Machine
import Verif.Spec.Schedule

/-! # FMI 2.0 and FMI 3.0 in lockstep -/

set_option linter.unusedSectionVars false

namespace Verif
variable {F D D' : Type} [Arith F] [HasInf F]

/-- What the loop of `DoStep` depends on. -/
structure Progress (F : Type) where
  start : F
  nSteps : Nat
  time : F
  term : Bool

def Comp.progress (c : Comp F D) : Progress F := ⟨c.startTime, c.nSteps, c.ctx.time, c.mv.terminateSimulation⟩

/-- The clock one solver step later. -/
def Progress.tick (h : F) (k : Progress F) : Progress F :=
  ⟨k.start, (k.nSteps + 1) % 2 ^ 64, k.start +. Arith.lit (((k.nSteps + 1) % 2 ^ 64 : Nat) : Rat) *. h, k.term⟩

/-- A machine that never ends the simulation, with the clock. -/
theorem Follows.timed {m : Model F D} {o : Ode m} {S : Type} {tick : S → S} {R P : S → Comp F D → Prop}
    (k : Follows o tick R P)
    (ht : ∀ {s c c' eu st}, R s c ∨ P s c → m.eventUpdate = some eu → c.lift (eu c.ctx c.mv) = .ret (c', st, ()) →
      c'.mv.terminateSimulation = c.mv.terminateSimulation) :
    Follows o (fun p : S × Progress F => (tick p.1, p.2.tick m.h)) (fun p c => R p.1 c ∧ c.progress = p.2)
      (fun p c => P p.1 c ∧ c.progress = p.2) where
  step {s c c' se te} hr h e := by
    have h1 := k.step hr h.1 e
    have h2 : c'.progress = s.2.tick m.h := by
      obtain ⟨c2, e2, -, f, -, -, hmv⟩ := o.fixedStep_eq hr
      rw [e] at e2
      cases e2
      rw [← h.2]
      unfold Comp.progress Progress.tick
      rw [f.startTime, f.nSteps, f.ctx, hmv]
      rfl
    split
    · next hc => rw [if_pos hc] at h1; exact ⟨h1, h2⟩
    · next hc => rw [if_neg hc] at h1; exact ⟨h1, h2⟩
  event {s c c' eu st} h he e := by
    refine ⟨k.event h.1 he e, ?_⟩
    rw [← h.2]
    have := ht (.inr h.1) he e
    obtain ⟨mv, -, rfl⟩ := lift_eq_ret.1 e
    unfold Comp.progress
    rw [this]
  update {s c c' eu} h he e := by
    obtain ⟨s', h'⟩ := k.update h.1 he e
    exact ⟨(s', c'.progress), h', rfl⟩
  keep {s c c'} h a := ⟨k.keep h.1 a, by
    rw [← h.2]; unfold Comp.progress; rw [a.start, a.nSteps, a.time, a.kept.term]⟩
  keepP {s c c'} h a := ⟨k.keepP h.1 a, by
    rw [← h.2]; unfold Comp.progress; rw [a.start, a.nSteps, a.time, a.kept.term]⟩

/-- An iteration without event mode and early return. -/
theorem FMI3.iter_plain {m : Model F D} (hm : OkOrError m) {c c' : Comp F D} {out}
    (e : FMI3.iter m c false = .ret (c', .OK, out)) (hem : c.eventModeUsed = false) (her : c.earlyReturnAllowed = false) :
    out = (false, c'.mv.terminateSimulation) := by
  have f := FMI3.iter_frame hm e
  rcases FMI3.iter_eq_ret hm e with ⟨-, c0, ehn0, c1, se, te, e0, e1, h1⟩ | ⟨h, -⟩
  · have h0 : ehn0 = false := by
      unfold pendingEvent at e0
      cases he : m.eventUpdate with
      | none => rw [he] at e0; cases e0; rfl
      | some eu => rw [he] at e0; cases e0; rfl
    have f1 := (pendingEvent_frame e0).advance.trans (Frame.fixedStep e1)
    subst h0
    rcases h1 with ⟨-, rfl, rfl⟩ | ⟨-, -, h, -⟩ | ⟨eu, -, -, -, -, rfl⟩
    · rfl
    · rw [f1.emu] at h
      exact absurd h (by rw [show (advanceTime m c).eventModeUsed = c.eventModeUsed from rfl, hem]; simp)
    · rw [f.era, show (advanceTime m c).earlyReturnAllowed = c.earlyReturnAllowed from rfl, her]
      rfl
  · cases h

section
variable {m : Model F D} {m' : Model F D'} {o : Ode m} {o' : Ode m'} {S : Type} {tick : S → S}
  {R P : S → Comp F D → Prop} {R' P' : S → Comp F D' → Prop} {T : S → F} {Z : S → Bool}

/-- The loops of `fmi2DoStep` and `fmi3DoStep` make the same steps. -/
theorem Loop.lockstep (k : Follows o tick R P) (k' : Follows o' tick R' P') (hm : OkOrError m) (hm' : OkOrError m')
    (hh : m'.h = m.h) (hT : ∀ {s c}, R s c → c.ctx.time = T s ∧ c.mv.terminateSimulation = Z s)
    (hT' : ∀ {s c}, R' s c → c.ctx.time = T s ∧ c.mv.terminateSimulation = Z s) {next : F}
    {c d : Comp F D} {n st} (h : FMI2.Loop m next c n d st) (hs : st ≠ .Error) {c' d' : Comp F D'} {n' e r}
    (h' : FMI3.Loop m' next c' false n' d' .OK e r) (hem : c'.eventModeUsed = false) (her : c'.earlyReturnAllowed = false)
    (hr : o.Ready c) (hr' : o'.Ready c') {s : S} (hs1 : R s c) (hs2 : R' s c') :
    (∃ s', R s' d ∧ R' s' d') ∧ d'.eventModeUsed = false ∧ d'.earlyReturnAllowed = false ∧
      (st = .Discard ↔ r = false) := by
  have hreach : ∀ {s c c'}, R s c → R' s c' → reached m' next c' = reached m next c := by
    intro s c c' h1 h2
    unfold reached
    rw [hh, (hT h1).1, (hT' h2).1]
  induction h generalizing s c' n' with
  | @done c hd =>
    have hrc := hreach hs1 hs2
    cases h' with
    | done =>
      refine ⟨⟨s, k.keep hs1 ⟨⟨rfl, rfl, rfl, rfl, rfl, rfl⟩, .inl rfl, rfl, rfl, rfl⟩, hs2⟩, hem, her, ?_⟩
      rw [hrc, hd]
      simp
    | step h _ _ => rw [hrc, hd] at h; simp at h
    | leave h _ => rw [hrc, hd] at h; simp at h
  | @step c c1 n d st hd e ht hl ih =>
    have hrc := hreach hs1 hs2
    obtain ⟨r1, s1⟩ := FMI2.iter_follows k hm hr hs1 e
    cases h' with
    | done h => rw [hrc, hd] at h; simp at h
    | step h e' hl' =>
      obtain ⟨r1', s1'⟩ := FMI3.iter_follows k' hm' hr' (ehn := false) (show FMI3.Pending m' R' P' false _ _ from hs2) e'
      have f := FMI3.iter_frame hm' e'
      obtain ⟨hp, -⟩ := Prod.mk.inj (FMI3.iter_plain hm' e' hem her)
      subst hp
      exact ih hs hl' (f.emu.trans hem) (f.era.trans her) r1 r1' s1 s1'
    | leave h e' =>
      obtain ⟨r1', s1'⟩ := FMI3.iter_follows k' hm' hr' (ehn := false) (show FMI3.Pending m' R' P' false _ _ from hs2) e'
      obtain ⟨hp, hq⟩ := Prod.mk.inj (FMI3.iter_plain hm' e' hem her)
      subst hp
      rw [(hT' (show R' _ _ from s1')).2, ← (hT s1).2, ht] at hq
      cases hq
  | @discard c c1 hd e ht =>
    have hrc := hreach hs1 hs2
    obtain ⟨r1, s1⟩ := FMI2.iter_follows k hm hr hs1 e
    cases h' with
    | done h => rw [hrc, hd] at h; simp at h
    | step h e' hl' =>
      obtain ⟨r1', s1'⟩ := FMI3.iter_follows k' hm' hr' (ehn := false) (show FMI3.Pending m' R' P' false _ _ from hs2) e'
      obtain ⟨hp, hq⟩ := Prod.mk.inj (FMI3.iter_plain hm' e' hem her)
      subst hp
      rw [(hT' (show R' _ _ from s1')).2, ← (hT s1).2, ht] at hq
      cases hq
    | leave h e' =>
      obtain ⟨r1', s1'⟩ := FMI3.iter_follows k' hm' hr' (ehn := false) (show FMI3.Pending m' R' P' false _ _ from hs2) e'
      have f := FMI3.iter_frame hm' e'
      obtain ⟨hp, -⟩ := Prod.mk.inj (FMI3.iter_plain hm' e' hem her)
      subst hp
      exact ⟨⟨_, s1, s1'⟩, f.emu.trans hem, f.era.trans her, by simp⟩
  | error => exact absurd rfl hs

theorem FMI2.run_append {fuel : Nat} : ∀ (l l' : List (FMI2.Op F)) {w w' : FMI2.World F D} {outs},
    FMI2.run m fuel w (l ++ l') = .ret (w', outs) → ∃ w1 o1 o2, FMI2.run m fuel w l = .ret (w1, o1) ∧
      FMI2.run m fuel w1 l' = .ret (w', o2) ∧ outs = o1 ++ o2 := by
  intro l
  induction l with
  | nil => intro l' w w' outs e; exact ⟨w, [], outs, rfl, e, rfl⟩
  | cons op l ih =>
    intro l' w w' outs e
    simp only [List.cons_append, FMI2.run] at e ⊢
    obtain ⟨⟨w1, st, x⟩, e1, e⟩ := Outcome.bind_eq_ret.1 e
    obtain ⟨⟨w2, o2⟩, e2, e⟩ := Outcome.bind_eq_ret.1 e
    cases e
    obtain ⟨w3, o3, o4, h1, h2, rfl⟩ := ih l' e2
    refine ⟨w3, (st, x) :: o3, o4, ?_, h2, rfl⟩
    rw [e1, Outcome.ret_bind, h1, Outcome.ret_bind]

theorem FMI3.run_append {fuel : Nat} : ∀ (l l' : List (FMI3.Op F)) {w w' : FMI3.World F D'} {outs},
    FMI3.run m' fuel w (l ++ l') = .ret (w', outs) → ∃ w1 o1 o2, FMI3.run m' fuel w l = .ret (w1, o1) ∧
      FMI3.run m' fuel w1 l' = .ret (w', o2) ∧ outs = o1 ++ o2 := by
  intro l
  induction l with
  | nil => intro l' w w' outs e; exact ⟨w, [], outs, rfl, e, rfl⟩
  | cons op l ih =>
    intro l' w w' outs e
    simp only [List.cons_append, FMI3.run] at e ⊢
    obtain ⟨⟨w1, st, x⟩, e1, e⟩ := Outcome.bind_eq_ret.1 e
    obtain ⟨⟨w2, o2⟩, e2, e⟩ := Outcome.bind_eq_ret.1 e
    cases e
    obtain ⟨w3, o3, o4, h1, h2, rfl⟩ := ih l' e2
    refine ⟨w3, (st, x) :: o3, o4, ?_, h2, rfl⟩
    rw [e1, Outcome.ret_bind, h1, Outcome.ret_bind]

theorem FMI3.schedule_nil {ops : List (FMI3.Op F)} (h : FMI3.schedule ops = []) {op} (ho : op ∈ ops) :
    op.fn ≠ .doStep := by
  intro hd
  cases op <;> simp only [Op.fn, reduceCtorEq] at hd
  have := List.filterMap_eq_nil_iff.1 h _ ho
  simp at this

theorem FMI3.schedule_cons : ∀ (ops : List (FMI3.Op F)) {a l}, FMI3.schedule ops = a :: l →
    ∃ pre out post, ops = pre ++ FMI3.Op.doStep a.1 a.2 out :: post ∧ FMI3.schedule pre = [] ∧
      FMI3.schedule post = l := by
  intro ops
  induction ops with
  | nil => intro a l h; cases h
  | cons op ops ih =>
    intro a l h
    by_cases hd : op.fn = .doStep
    · cases op <;> simp only [Op.fn, reduceCtorEq] at hd
      cases h
      exact ⟨[], _, ops, rfl, rfl, rfl⟩
    · have hn : ∀ l, FMI3.schedule (op :: l) = FMI3.schedule l := by
        intro l
        cases op <;> first | rfl | exact absurd rfl hd
      rw [hn] at h
      obtain ⟨pre, out, post, rfl, h1, h2⟩ := ih h
      exact ⟨op :: pre, out, post, rfl, (hn _).trans h1, h2⟩

/-- Calls between two communication steps. -/
theorem FMI3.run_between (k' : Follows o' tick R' P') (hm' : RefFMU3 m') (hrd' : m'.ReadsUpTo o'.calc') {fuel : Nat} {t : IType} :
    ∀ (ops : List (FMI3.Op F)) {w w' : FMI3.World F D'} {outs} {s : S}, ReachableProper m' t w → FMI3.Started w.inst →
    (∀ op ∈ ops, ¬ Interferes op ∧ op.fn ≠ .updateDiscreteStates ∧ op.fn ≠ .doStep) → R' s w.inst →
    run m' fuel w ops = .ret (w', outs) → (∀ p ∈ outs, p.1 = .OK) →
    ReachableProper m' t w' ∧ FMI3.Started w'.inst ∧ R' s w'.inst ∧
      w'.inst.eventModeUsed = w.inst.eventModeUsed ∧ w'.inst.earlyReturnAllowed = w.inst.earlyReturnAllowed := by
  intro ops
  induction ops with
  | nil => intro w w' outs s h hst _ hp e _; cases e; exact ⟨h, hst, hp, rfl, rfl⟩
  | cons op ops ih =>
    intro w w' outs s h hst hops hp e hs
    unfold run at e
    obtain ⟨⟨w1, st, x⟩, e1, e⟩ := Outcome.bind_eq_ret.1 e
    obtain ⟨⟨w2, l⟩, e2, e⟩ := Outcome.bind_eq_ret.1 e
    cases e
    cases hs _ (List.mem_cons_self ..)
    obtain ⟨hop, hu, hd⟩ := hops op (by simp)
    have ha := FMI3.step_alike o' hm'.eff hrd' (h.ready o' hm').1 hst hop hd (fun h => absurd h hu) e1
    obtain ⟨h1, h2, h3, h4, h5⟩ := ih (ReachableProper.call h e1 fun _ h' => hst (by simp [h']))
      (FMI3.step_started hm'.eff.okOrError hst (fun h => hop (.of_restarts h)) _ e1)
      (fun op h => hops op (by simp [h])) (k'.keep hp ha) e2 (fun p h => hs p (by simp [h]))
    exact ⟨h1, h2, h3, h4.trans ha.kept.emu, h5.trans ha.kept.era⟩

/-- Two simulations with the same communication steps. -/
theorem run_lockstep (k : Follows o tick R P) (k' : Follows o' tick R' P') (hm : RefFMU2 m) (hm' : RefFMU3 m')
    (hrd : m.ReadsUpTo o.calc') (hrd' : m'.ReadsUpTo o'.calc')
    (hh : m'.h = m.h) (hT : ∀ {s c}, R s c → c.ctx.time = T s ∧ c.mv.terminateSimulation = Z s)
    (hT' : ∀ {s c}, R' s c → c.ctx.time = T s ∧ c.mv.terminateSimulation = Z s) {fuel fuel' : Nat} {t t' : IType} :
    ∀ (ops : List (FMI2.Op F)) (ops' : List (FMI3.Op F)) {w v : FMI2.World F D} {w' v' : FMI3.World F D'} {outs outs'} {s : S},
    FMI2.schedule ops = FMI3.schedule ops' →
    FMI2.Reachable m t w → FMI2.Started w.inst → (∀ op ∈ ops, ¬ FMI2.Interferes op) →
    FMI2.run m fuel w ops = .ret (v, outs) → (∀ p ∈ outs, p.1 ≠ .Error) →
    FMI3.ReachableProper m' t' w' → FMI3.Started w'.inst →
    (∀ op ∈ ops', ¬ FMI3.Interferes op ∧ op.fn ≠ .updateDiscreteStates) →
    w'.inst.eventModeUsed = false → w'.inst.earlyReturnAllowed = false →
    FMI3.run m' fuel' w' ops' = .ret (v', outs') → (∀ p ∈ outs', p.1 = .OK) →
    R s w.inst → R' s w'.inst → FMI3.ReachableProper m' t' v' ∧ ∃ s', R s' v.inst ∧ R' s' v'.inst := by
  have hk := hm.eff.okOrError
  have hk' := hm'.eff.okOrError
  intro ops
  induction ops with
  | nil =>
    intro ops' w v w' v' outs outs' s hsch h1 h2 h3 e hs h1' h2' h3' hem her e' hs' hr hr'
    cases e
    obtain ⟨g1, g2, g3, -, -⟩ := FMI3.run_between k' hm' hrd' ops' h1' h2'
      (fun op h => ⟨(h3' op h).1, (h3' op h).2, FMI3.schedule_nil hsch.symm h⟩) hr' e' hs'
    exact ⟨g1, s, hr, g3⟩
  | cons op ops ih =>
    intro ops' w v w' v' outs outs' s hsch h1 h2 h3 e hs h1' h2' h3' hem her e' hs' hr hr'
    unfold FMI2.run at e
    obtain ⟨⟨w1, st, x⟩, e1, e⟩ := Outcome.bind_eq_ret.1 e
    obtain ⟨⟨w2, l⟩, e2, e⟩ := Outcome.bind_eq_ret.1 e
    cases e
    have hop := h3 op (by simp)
    have hse := hs _ (List.mem_cons_self ..)
    have hst1 := FMI2.step_started hk h2 hop _ e1
    have h11 := FMI2.Reachable.call hk h1 e1
    by_cases hd : op.fn = .doStep
    · cases op <;> simp only [FMI2.Op.fn, reduceCtorEq] at hd
      rename_i ccp hst
      obtain ⟨pre, out, post, rfl, hp1, hp2⟩ := FMI3.schedule_cons ops' hsch.symm
      obtain ⟨v1, o1, o2, e3, e4, rfl⟩ := FMI3.run_append _ _ e'
      obtain ⟨g1, g2, g3, g4, g5⟩ := FMI3.run_between k' hm' hrd' pre h1' h2'
        (fun op h => ⟨(h3' op (by simp [h])).1, (h3' op (by simp [h])).2, FMI3.schedule_nil hp1 h⟩) hr' e3
        (fun p h => hs' p (by simp [h]))
      unfold FMI3.run at e4
      obtain ⟨⟨v2, st', x'⟩, e5, e4⟩ := Outcome.bind_eq_ret.1 e4
      obtain ⟨⟨v3, l'⟩, e6, e4⟩ := Outcome.bind_eq_ret.1 e4
      cases e4
      cases hs' (st', x') (by simp)
      have hop' := (h3' (.doStep ccp hst out) (by simp)).1
      have g11 := FMI3.ReachableProper.call g1 e5 (by intro h; cases h)
      have g21 := FMI3.step_started hk' g2 (fun h => hop' (.of_restarts h)) _ e5
      obtain ⟨ha, -, n, -, hl⟩ := FMI2.doStep_loop hk e1 hse
      obtain ⟨ha', n', c', ehn, r, -, hl', rfl, -⟩ := FMI3.doStep_loop hk' e5
      obtain ⟨hl1, hi⟩ := h1.ready o hm
      obtain ⟨hl1', hi'⟩ := g1.ready o' hm'
      simp only [FMI3.Spec.allowedIn, List.mem_cons, List.not_mem_nil, or_false] at ha'
      obtain ⟨⟨s', hr1, hr1'⟩, hem1, her1, -⟩ := Loop.lockstep k k' hk hk' hh hT hT' hl hse hl' (g4.trans hem) (g5.trans her)
        ((Ode.conf_not_early hi ha).ready hl1) ((Ode.conf_not_early hi' ha').ready hl1') hr g3
      exact ih post hp2.symm h11 hst1 (fun op h => h3 op (by simp [h])) e2 (fun p h => hs p (by simp [h])) g11 g21
        (fun op h => h3' op (by simp [h])) hem1 her1 e6 (fun p h => hs' p (by simp [h])) hr1
        (k'.keep hr1' ⟨⟨rfl, rfl, rfl, rfl, rfl, rfl⟩, .inl rfl, rfl, rfl, rfl⟩)
    · have hn : FMI2.schedule (op :: ops) = FMI2.schedule ops := by
        cases op <;> first | rfl | exact absurd rfl hd
      exact ih ops' (hn ▸ hsch) h11 hst1 (fun op h => h3 op (by simp [h])) e2 (fun p h => hs p (by simp [h])) h1' h2'
        h3' hem her e' hs' (k.keep hr (FMI2.step_alike o hm.eff hrd h2 hop hd e1 hse)) hr'

end
end Verif
