import Verif.Lemmas.EulerLaws

/-! # The functions of the FMUs obey the laws of the importer for Model Exchange -/

set_option linter.unusedSectionVars false

namespace Verif.Importer.Euler
open Verif
variable {F D : Type} [Arith F] [HasInf F] {m : Model F D}

/-- What an event does to the data. -/
structure Events (o : Ode m) (ev : D → D) (I : EventInfo F → Prop) : Prop where
  none : m.eventUpdate = none → ev = id ∧ ∀ i, I i
  some : ∀ {eu ctx mv mv' d}, m.eventUpdate = some eu → o.calc' mv.data = o.calc' d → eu ctx mv = .ret (mv', .OK, ()) →
    o.calc' mv'.data = o.calc' (ev d) ∧ I mv'.eventInfo ∧ (mv'.valuesChanged = false → o.states (ev d) = o.states d)
  idem : ∀ d, ev (ev d) = ev d
  info : ∀ {i : EventInfo F} b, I i → I { i with terminateSimulation := b }
  states_upd : ∀ d l, l.length = o.nx → o.states (o.upd d l) = l

theorem putVector_full {ctx : Ctx F} {mv mv' : MV F D} {l vs : List F} {n : Nat} (h : vs.length = n) (hl : l.length = n) :
    putVector ctx mv mv' (some l) n vs = .ret (mv', .OK, some vs) := by
  subst h
  rw [putVector_eq (by omega), List.drop_eq_nil_of_le (by omega), List.append_nil]

/-- A function that reads a vector. -/
theorem vec_eq {al : Bool} {name : String} {c c' : Comp F D} {p out : Ptr F} {f : Ctx F → MV F D → MRes F D (Ptr F)} {vs : List F}
    (hf : ∀ ctx, ∃ mv', f ctx c.mv = .ret (mv', .OK, some vs))
    (h : beginFunction al name c p (fun c => callLast (c.lift (f c.ctx c.mv)) id) = .ret (c', .OK, out)) : out = some vs := by
  unfold beginFunction at h
  split at h
  · obtain ⟨mv', e⟩ := hf c.ctx
    simp only [e] at h
    cases h
    rfl
  · cases h

/-- A function that sets a vector. -/
theorem set_eq {al : Bool} {name : String} {c c' : Comp F D} {u : Unit} {f : Ctx F → MV F D → MRes F D (Ptr F)} {d : D}
    (hf : ∀ ctx, ∃ mv' p, f ctx c.mv = .ret (mv', .OK, p) ∧ mv'.data = d)
    (h : beginFunction al name c () (fun c => callLast (c.lift (f c.ctx c.mv)) fun _ => ()) = .ret (c', .OK, u)) :
    c'.mv.data = d := by
  unfold beginFunction at h
  split at h
  · obtain ⟨mv', p, e, hd⟩ := hf c.ctx
    simp only [e] at h
    cases h
    exact hd
  · cases h

theorem laws2 (o : Ode m) (hm : m.Eff) (hr : m.ReadsUpTo o.calc') {ev I} {K : D → F → Prop} (he : Events o ev I) (vrs : List Nat) :
    Laws o (api2 m vrs) (fun w => w.inst) (fun w => FMI2.Readable w.inst) ev I K := by
  have hk := hm.okOrError
  have rd : ∀ {w w' : FMI2.World F D} {op : FMI2.Op F} {s out}, ¬ (op.fn = .reset ∨ op.fn = .setFMUstate) →
      FMI2.step m 0 w op = .ret (w', s, out) → FMI2.Readable w.inst → FMI2.Readable w'.inst := by
    intro w w' op s out hop e h
    exact FMI2.step_keepX hk (FMI2.Readable.callInv m) (fun _ _ _ _ => trivial) h (fun _ _ _ _ h => h) hop _ e
  have near : ∀ {w w' : FMI2.World F D} {op : FMI2.Op F} {s out}, ¬ FMI2.Interferes op → op.fn ≠ .doStep →
      op.fn ≠ .newDiscreteStates →
      FMI2.step m 0 w op = .ret (w', s, out) → FMI2.Readable w.inst → Near o w.inst w'.inst ∧ FMI2.Readable w'.inst := by
    intro w w' op s out hop hd hu e h
    refine ⟨⟨(FMI2.step_passive hm hr (FMI2.not_notPassive hop hd fun h => absurd h hu) _ e).data,
      congrArg Times.time (FMI2.passive_times hk hop hd e)⟩, rd ?_ e h⟩
    rintro (h | h) <;> exact hop (by simp [FMI2.Interferes, h])
  constructor
  case getDerivatives =>
    intro w l w' l' hx h hl e
    obtain ⟨⟨w1, s1, o1⟩, e1, e⟩ := Outcome.bind_eq_ret.1 e
    cases e
    refine ⟨(near (by simp [FMI2.Interferes, FMI2.Op.fn]) (by simp [FMI2.Op.fn]) (by simp [FMI2.Op.fn]) e1 h).1,
      (near (by simp [FMI2.Interferes, FMI2.Op.fn]) (by simp [FMI2.Op.fn]) (by simp [FMI2.Op.fn]) e1 h).2, ?_⟩
    simp only [FMI2.step, FMI2.World.run] at e1
    obtain ⟨⟨c1, s1, o1⟩, e2, e1⟩ := Outcome.bind_eq_ret.1 e1
    cases e1
    have := vec_eq (f := fun ctx mv => m.getDerivatives ctx mv (some l) o.nx) (fun ctx => ⟨_, by rw [o.getDerivs hx, putVector_full (o.lenD _) hl]⟩) e2
    subst this
    rfl
  case getStates =>
    intro w l w' l' hx h hl e
    obtain ⟨⟨w1, s1, o1⟩, e1, e⟩ := Outcome.bind_eq_ret.1 e
    cases e
    refine ⟨(near (by simp [FMI2.Interferes, FMI2.Op.fn]) (by simp [FMI2.Op.fn]) (by simp [FMI2.Op.fn]) e1 h).1,
      (near (by simp [FMI2.Interferes, FMI2.Op.fn]) (by simp [FMI2.Op.fn]) (by simp [FMI2.Op.fn]) e1 h).2, ?_⟩
    simp only [FMI2.step, FMI2.World.run] at e1
    obtain ⟨⟨c1, s1, o1⟩, e2, e1⟩ := Outcome.bind_eq_ret.1 e1
    cases e1
    have := vec_eq (f := fun ctx mv => m.getContinuousStates ctx mv (some l) o.nx) (fun ctx => ⟨_, by rw [o.getStates hx, putVector_full (o.lenX _) hl]⟩) e2
    subst this
    rfl
  case getIndicators =>
    intro w l w' l' hx h hl e
    obtain ⟨⟨w1, s1, o1⟩, e1, e⟩ := Outcome.bind_eq_ret.1 e
    cases e
    refine ⟨(near (by simp [FMI2.Interferes, FMI2.Op.fn]) (by simp [FMI2.Op.fn]) (by simp [FMI2.Op.fn]) e1 h).1,
      (near (by simp [FMI2.Interferes, FMI2.Op.fn]) (by simp [FMI2.Op.fn]) (by simp [FMI2.Op.fn]) e1 h).2, ?_⟩
    simp only [FMI2.step, FMI2.World.run] at e1
    obtain ⟨⟨c1, s1, o1⟩, e2, e1⟩ := Outcome.bind_eq_ret.1 e1
    cases e1
    have := vec_eq (f := fun ctx mv => m.getEventIndicators ctx mv (some l) o.nz) (fun ctx => ⟨_, by rw [o.getInds hx, putVector_full (o.lenZ _) hl]⟩) e2
    subst this
    rfl
  case getNominals =>
    intro w l w' l' h e
    obtain ⟨⟨w1, s1, o1⟩, e1, e⟩ := Outcome.bind_eq_ret.1 e
    cases e
    exact near (by simp [FMI2.Interferes, FMI2.Op.fn]) (by simp [FMI2.Op.fn]) (by simp [FMI2.Op.fn]) e1 h
  case record =>
    intro w w' d h _ _ e
    obtain ⟨⟨w1, s1, o1⟩, e1, e⟩ := Outcome.bind_eq_ret.1 e
    cases e
    exact near (by simp [FMI2.Interferes, FMI2.Op.fn]) (by simp [FMI2.Op.fn]) (by simp [FMI2.Op.fn]) e1 h
  case enterEventMode =>
    intro w w' h e
    obtain ⟨⟨w1, s1, o1⟩, e1, e⟩ := Outcome.bind_eq_ret.1 e
    cases e
    exact near (by simp [FMI2.Interferes, FMI2.Op.fn]) (by simp [FMI2.Op.fn]) (by simp [FMI2.Op.fn]) e1 h
  case enterContinuousTimeMode =>
    intro w w' h e
    obtain ⟨⟨w1, s1, o1⟩, e1, e⟩ := Outcome.bind_eq_ret.1 e
    cases e
    exact near (by simp [FMI2.Interferes, FMI2.Op.fn]) (by simp [FMI2.Op.fn]) (by simp [FMI2.Op.fn]) e1 h
  case completed =>
    intro w a b w' r h e
    obtain ⟨⟨w1, s1, o1⟩, e1, e⟩ := Outcome.bind_eq_ret.1 e
    cases e
    refine ⟨(near (by simp [FMI2.Interferes, FMI2.Op.fn]) (by simp [FMI2.Op.fn]) (by simp [FMI2.Op.fn]) e1 h).1,
      (near (by simp [FMI2.Interferes, FMI2.Op.fn]) (by simp [FMI2.Op.fn]) (by simp [FMI2.Op.fn]) e1 h).2, ?_⟩
    simp only [FMI2.step, FMI2.World.run, FMI2.completedIntegratorStep, FMI2.begin, beginFunction] at e1
    obtain ⟨⟨c1, s1, o1⟩, e2, e1⟩ := Outcome.bind_eq_ret.1 e1
    cases e1
    split at e2 <;> cases e2
    rfl
  case setTime =>
    intro w t w' h e
    obtain ⟨⟨w1, s1, o1⟩, e1, e⟩ := Outcome.bind_eq_ret.1 e
    cases e
    have hre := rd (by simp [FMI2.Op.fn]) e1 h
    simp only [FMI2.step, FMI2.World.run, FMI2.setTime, FMI2.begin, beginFunction] at e1
    obtain ⟨⟨c1, s1, o1⟩, e2, e1⟩ := Outcome.bind_eq_ret.1 e1
    cases e1
    split at e2 <;> cases e2
    exact ⟨rfl, rfl, hre⟩
  case setStates =>
    intro w l w' hx h hl e
    obtain ⟨⟨w1, s1, o1⟩, e1, e⟩ := Outcome.bind_eq_ret.1 e
    cases e
    have hre := rd (by simp [FMI2.Op.fn]) e1 h
    have ht := FMI2.step_times hk (by simp [FMI2.Op.fn]) _ e1
    refine ⟨?_, congrArg Times.time ht, hre⟩
    simp only [FMI2.step, FMI2.World.run] at e1
    obtain ⟨⟨c1, s1, o1⟩, e2, e1⟩ := Outcome.bind_eq_ret.1 e1
    cases e1
    exact set_eq (f := fun ctx mv => m.setContinuousStates ctx mv (some l) o.nx) (d := o.upd w.inst.mv.data l) (fun ctx => ⟨_, _, by
      rw [o.setStates hx, takeVector_eq (by omega), List.take_of_length_le (by omega)], rfl⟩) e2
  case update =>
    intro w i w' i' d h hd e
    obtain ⟨⟨w1, s1, o1⟩, e1, e⟩ := Outcome.bind_eq_ret.1 e
    cases e
    have hre := rd (by simp [FMI2.Op.fn]) e1 h
    have ht := congrArg Times.time (FMI2.passive_times hk (by simp [FMI2.Interferes, FMI2.Op.fn]) (by simp [FMI2.Op.fn]) e1)
    simp only [FMI2.step, FMI2.World.run, FMI2.newDiscreteStates, FMI2.begin, beginFunction] at e1
    obtain ⟨⟨c1, s1, o1⟩, e2, e1⟩ := Outcome.bind_eq_ret.1 e1
    cases e1
    split at e2
    · cases hn : m.eventUpdate with
      | none =>
        rw [hn] at e2
        cases e2
        obtain ⟨rfl, hI⟩ := he.none hn
        exact ⟨hd, rfl, hre, hI _, fun _ => rfl⟩
      | some eu =>
        rw [hn] at e2
        simp only [call] at e2
        obtain ⟨⟨c2, s2, u⟩, e3, e2⟩ := Outcome.bind_eq_ret.1 e2
        obtain ⟨mv, e4, rfl⟩ := lift_eq_ret.1 e3
        rcases hk _ _ _ _ _ (.event hn e4) with rfl | rfl
        · cases e2
          obtain ⟨h1, h2, h3⟩ := he.some hn hd e4
          exact ⟨h1, rfl, hre, h2, h3⟩
        · cases e2
    · cases e2
  case idem => exact he.idem
  case info => exact he.info
  case states_upd => exact he.states_upd

theorem laws3 (o : Ode m) (hm : m.Eff) (hr : m.ReadsUpTo o.calc') {ev I} {K : D → F → Prop} (he : Events o ev I) (t : IType) (vrs : List Nat) :
    Laws o (api3 m vrs) (fun w => w.inst) (FMI3.Reachable m t) ev I K := by
  have hk := hm.okOrError
  have rd : ∀ {w w' : FMI3.World F D} {op : FMI3.Op F} {s out}, FMI3.step m 0 w op = .ret (w', s, out) →
      FMI3.Reachable m t w → FMI3.Reachable m t w' := fun e h => FMI3.Reachable.call hk h e
  have near : ∀ {w w' : FMI3.World F D} {op : FMI3.Op F} {s out}, ¬ FMI3.Interferes op → op.fn ≠ .doStep →
      op.fn ≠ .updateDiscreteStates →
      FMI3.step m 0 w op = .ret (w', s, out) → FMI3.Reachable m t w → Near o w.inst w'.inst ∧ FMI3.Reachable m t w' := by
    intro w w' op s out hop hd hu e h
    exact ⟨⟨(FMI3.step_passive hm hr (FMI3.not_notPassive hop hd fun h => absurd h hu) _ e).data,
      congrArg Times.time (FMI3.passive_times hk hop hd e)⟩, rd e h⟩
  constructor
  case getDerivatives =>
    intro w l w' l' hx h hl e
    obtain ⟨⟨w1, s1, o1⟩, e1, e⟩ := Outcome.bind_eq_ret.1 e
    cases e
    refine ⟨(near (by simp [FMI3.Interferes, FMI3.Op.fn]) (by simp [FMI3.Op.fn]) (by simp [FMI3.Op.fn]) e1 h).1,
      (near (by simp [FMI3.Interferes, FMI3.Op.fn]) (by simp [FMI3.Op.fn]) (by simp [FMI3.Op.fn]) e1 h).2, ?_⟩
    simp only [FMI3.step, FMI3.World.run] at e1
    obtain ⟨⟨c1, s1, o1⟩, e2, e1⟩ := Outcome.bind_eq_ret.1 e1
    cases e1
    have := vec_eq (f := fun ctx mv => m.getDerivatives ctx mv (some l) o.nx) (fun ctx => ⟨_, by rw [o.getDerivs hx, putVector_full (o.lenD _) hl]⟩) e2
    subst this
    rfl
  case getStates =>
    intro w l w' l' hx h hl e
    obtain ⟨⟨w1, s1, o1⟩, e1, e⟩ := Outcome.bind_eq_ret.1 e
    cases e
    refine ⟨(near (by simp [FMI3.Interferes, FMI3.Op.fn]) (by simp [FMI3.Op.fn]) (by simp [FMI3.Op.fn]) e1 h).1,
      (near (by simp [FMI3.Interferes, FMI3.Op.fn]) (by simp [FMI3.Op.fn]) (by simp [FMI3.Op.fn]) e1 h).2, ?_⟩
    simp only [FMI3.step, FMI3.World.run] at e1
    obtain ⟨⟨c1, s1, o1⟩, e2, e1⟩ := Outcome.bind_eq_ret.1 e1
    cases e1
    have := vec_eq (f := fun ctx mv => m.getContinuousStates ctx mv (some l) o.nx) (fun ctx => ⟨_, by rw [o.getStates hx, putVector_full (o.lenX _) hl]⟩) e2
    subst this
    rfl
  case getIndicators =>
    intro w l w' l' hx h hl e
    obtain ⟨⟨w1, s1, o1⟩, e1, e⟩ := Outcome.bind_eq_ret.1 e
    cases e
    refine ⟨(near (by simp [FMI3.Interferes, FMI3.Op.fn]) (by simp [FMI3.Op.fn]) (by simp [FMI3.Op.fn]) e1 h).1,
      (near (by simp [FMI3.Interferes, FMI3.Op.fn]) (by simp [FMI3.Op.fn]) (by simp [FMI3.Op.fn]) e1 h).2, ?_⟩
    simp only [FMI3.step, FMI3.World.run] at e1
    obtain ⟨⟨c1, s1, o1⟩, e2, e1⟩ := Outcome.bind_eq_ret.1 e1
    cases e1
    have := vec_eq (f := fun ctx mv => m.getEventIndicators ctx mv (some l) o.nz) (fun ctx => ⟨_, by rw [o.getInds hx, putVector_full (o.lenZ _) hl]⟩) e2
    subst this
    rfl
  case getNominals =>
    intro w l w' l' h e
    obtain ⟨⟨w1, s1, o1⟩, e1, e⟩ := Outcome.bind_eq_ret.1 e
    cases e
    exact near (by simp [FMI3.Interferes, FMI3.Op.fn]) (by simp [FMI3.Op.fn]) (by simp [FMI3.Op.fn]) e1 h
  case record =>
    intro w w' d h _ _ e
    obtain ⟨⟨w1, s1, o1⟩, e1, e⟩ := Outcome.bind_eq_ret.1 e
    cases e
    exact near (by simp [FMI3.Interferes, FMI3.Op.fn]) (by simp [FMI3.Op.fn]) (by simp [FMI3.Op.fn]) e1 h
  case enterEventMode =>
    intro w w' h e
    obtain ⟨⟨w1, s1, o1⟩, e1, e⟩ := Outcome.bind_eq_ret.1 e
    cases e
    exact near (by simp [FMI3.Interferes, FMI3.Op.fn]) (by simp [FMI3.Op.fn]) (by simp [FMI3.Op.fn]) e1 h
  case enterContinuousTimeMode =>
    intro w w' h e
    obtain ⟨⟨w1, s1, o1⟩, e1, e⟩ := Outcome.bind_eq_ret.1 e
    cases e
    exact near (by simp [FMI3.Interferes, FMI3.Op.fn]) (by simp [FMI3.Op.fn]) (by simp [FMI3.Op.fn]) e1 h
  case completed =>
    intro w a b w' r h e
    obtain ⟨⟨w1, s1, o1⟩, e1, e⟩ := Outcome.bind_eq_ret.1 e
    cases e
    refine ⟨(near (by simp [FMI3.Interferes, FMI3.Op.fn]) (by simp [FMI3.Op.fn]) (by simp [FMI3.Op.fn]) e1 h).1,
      (near (by simp [FMI3.Interferes, FMI3.Op.fn]) (by simp [FMI3.Op.fn]) (by simp [FMI3.Op.fn]) e1 h).2, ?_⟩
    simp only [FMI3.step, FMI3.World.run, FMI3.completedIntegratorStep, FMI3.begin, beginFunction] at e1
    obtain ⟨⟨c1, s1, o1⟩, e2, e1⟩ := Outcome.bind_eq_ret.1 e1
    cases e1
    split at e2 <;> cases e2
    rfl
  case setTime =>
    intro w t w' h e
    obtain ⟨⟨w1, s1, o1⟩, e1, e⟩ := Outcome.bind_eq_ret.1 e
    cases e
    have hre := rd e1 h
    simp only [FMI3.step, FMI3.World.run, FMI3.setTime, FMI3.begin, beginFunction] at e1
    obtain ⟨⟨c1, s1, o1⟩, e2, e1⟩ := Outcome.bind_eq_ret.1 e1
    cases e1
    split at e2 <;> cases e2
    exact ⟨rfl, rfl, hre⟩
  case setStates =>
    intro w l w' hx h hl e
    obtain ⟨⟨w1, s1, o1⟩, e1, e⟩ := Outcome.bind_eq_ret.1 e
    cases e
    have hre := rd e1 h
    have ht := FMI3.step_times hk (by simp [FMI3.Op.fn]) _ e1
    refine ⟨?_, congrArg Times.time ht, hre⟩
    simp only [FMI3.step, FMI3.World.run] at e1
    obtain ⟨⟨c1, s1, o1⟩, e2, e1⟩ := Outcome.bind_eq_ret.1 e1
    cases e1
    exact set_eq (f := fun ctx mv => m.setContinuousStates ctx mv (some l) o.nx) (d := o.upd w.inst.mv.data l) (fun ctx => ⟨_, _, by
      rw [o.setStates hx, takeVector_eq (by omega), List.take_of_length_le (by omega)], rfl⟩) e2
  case update =>
    intro w i w' i' d h hd e
    obtain ⟨⟨w1, s1, o1⟩, e1, e⟩ := Outcome.bind_eq_ret.1 e
    cases e
    have hre := rd e1 h
    have ht := congrArg Times.time (FMI3.passive_times hk (by simp [FMI3.Interferes, FMI3.Op.fn]) (by simp [FMI3.Op.fn]) e1)
    simp only [FMI3.step, FMI3.World.run, FMI3.updateDiscreteStates, FMI3.begin, beginFunction] at e1
    obtain ⟨⟨c1, s1, o1⟩, e2, e1⟩ := Outcome.bind_eq_ret.1 e1
    cases e1
    split at e2
    · cases hn : m.eventUpdate with
      | none =>
        rw [hn] at e2
        cases e2
        obtain ⟨rfl, hI⟩ := he.none hn
        exact ⟨hd, rfl, hre, hI _, fun _ => rfl⟩
      | some eu =>
        rw [hn] at e2
        simp only [call] at e2
        obtain ⟨⟨c2, s2, u⟩, e3, e2⟩ := Outcome.bind_eq_ret.1 e2
        obtain ⟨mv, e4, rfl⟩ := lift_eq_ret.1 e3
        rcases hk _ _ _ _ _ (.event hn e4) with rfl | rfl
        · cases e2
          obtain ⟨h1, h2, h3⟩ := he.some hn hd e4
          exact ⟨h1, rfl, hre, h2, h3⟩
        · cases e2
    · cases e2
  case idem => exact he.idem
  case info => exact he.info
  case states_upd => exact he.states_upd

end Verif.Importer.Euler
