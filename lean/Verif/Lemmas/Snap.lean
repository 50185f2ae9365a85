import Verif.Lemmas.Lockstep
import Verif.Lemmas.Prepared

/-! # FMUs without event indicators as machines -/

set_option linter.unusedSectionVars false

namespace Verif
variable {F D : Type} [Arith F] [HasInf F] {m m' : Model F D}

/-- Everything the future of an instance without event indicators depends on. -/
structure Snap (F D : Type) where
  data : D
  netd : Bool
  net : F
  term : Bool
  start : F
  nSteps : Nat
  time : F

def Comp.snap (o : Ode m) (c : Comp F D) : Snap F D :=
  ⟨o.calc' c.mv.data, c.mv.nextEventTimeDefined, c.mv.nextEventTime, c.mv.terminateSimulation, c.startTime, c.nSteps,
    c.ctx.time⟩

/-- A solver step. -/
def Snap.adv (o : Ode m) (s : Snap F D) : Snap F D :=
  { s with
    data := o.calc' (o.euler s.data), nSteps := (s.nSteps + 1) % 2 ^ 64
    time := s.start +. Arith.lit (((s.nSteps + 1) % 2 ^ 64 : Nat) : Rat) *. m.h }

/-- A solver step and the event it finds. -/
def Snap.tick (o : Ode m) (ev : Snap F D → Snap F D) (s : Snap F D) : Snap F D :=
  let a := s.adv o
  if (a.netd && (a.net <=. a.time)) && m.eventUpdate.isSome then ev a else a

theorem Comp.snap_alike {o : Ode m} {c c' : Comp F D} (a : Alike o c c') : c'.snap o = c.snap o := by
  unfold Comp.snap
  rw [a.kept.data, a.kept.netd, a.kept.net, a.kept.term, a.start, a.nSteps, a.time]

theorem Snap.follows (o : Ode m) (hz : o.nz = 0) {ev : Snap F D → Snap F D}
    (hev : ∀ {c c' : Comp F D} {eu st}, m.eventUpdate = some eu → c.lift (eu c.ctx c.mv) = .ret (c', st, ()) →
      c'.snap o = ev (c.snap o)) :
    Follows o (Snap.tick o ev) (fun s c => c.snap o = s) (fun s c => ev (c.snap o) = s) where
  step {s c c' se te} hr h e := by
    obtain ⟨c2, e2, -, f, -, hd, hmv⟩ := o.fixedStep_eq hr
    rw [e] at e2
    simp only [Outcome.ret.injEq, Prod.mk.injEq, Option.some.injEq, true_and] at e2
    obtain ⟨rfl, rfl, rfl⟩ := e2
    have ha : c'.snap o = s.adv o := by
      subst h
      unfold Comp.snap Snap.adv
      simp only
      rw [hd, o.euler_calc, f.startTime, f.nSteps, f.ctx, hmv]
      rfl
    have hse : o.crossing c.prez (o.euler c.mv.data) = false := by
      unfold Ode.crossing; rw [if_pos hz]
    have hte : (c.mv.nextEventTimeDefined && (c.mv.nextEventTime <=. (advanceTime m c).ctx.time)) =
        ((s.adv o).netd && ((s.adv o).net <=. (s.adv o).time)) := by
      subst h; rfl
    rw [hse, hte, Bool.false_or]
    unfold Snap.tick
    simp only
    split
    · rw [ha]
    · exact ha
  event h he e := (hev he e).trans h
  update h he e := ⟨_, rfl⟩
  keep h a := (Comp.snap_alike a).trans h
  keepP h a := by rw [Comp.snap_alike a]; exact h

/-- The two versions in lockstep. -/
theorem Snap.lockstep (o : Ode m) (o' : Ode m') (hz : o.nz = 0) (hz' : o'.nz = 0) {ev : Snap F D → Snap F D}
    (hev : ∀ {c c' : Comp F D} {eu st}, m.eventUpdate = some eu → c.lift (eu c.ctx c.mv) = .ret (c', st, ()) →
      c'.snap o = ev (c.snap o))
    (hev' : ∀ {c c' : Comp F D} {eu st}, m'.eventUpdate = some eu → c.lift (eu c.ctx c.mv) = .ret (c', st, ()) →
      c'.snap o' = ev (c.snap o'))
    (ht : Snap.tick o ev = Snap.tick o' ev) (hh : m'.h = m.h)
    (hm : RefFMU2 m) (hm' : RefFMU3 m') (hrd : m.ReadsUpTo o.calc') (hrd' : m'.ReadsUpTo o'.calc') {fuel fuel' : Nat} {t t' : IType}
    (ops : List (FMI2.Op F)) (ops' : List (FMI3.Op F)) {w v : FMI2.World F D} {w' v' : FMI3.World F D} {outs outs'}
    (hsch : FMI2.schedule ops = FMI3.schedule ops')
    (h : FMI2.Reachable m t w) (hst : FMI2.Started w.inst) (hops : ∀ op ∈ ops, ¬ FMI2.Interferes op)
    (e : FMI2.run m fuel w ops = .ret (v, outs)) (hs : ∀ p ∈ outs, p.1 ≠ .Error)
    (h' : FMI3.ReachableProper m' t' w') (hst' : FMI3.Started w'.inst)
    (hops' : ∀ op ∈ ops', ¬ FMI3.Interferes op ∧ op.fn ≠ .updateDiscreteStates)
    (hem : w'.inst.eventModeUsed = false) (her : w'.inst.earlyReturnAllowed = false)
    (e' : FMI3.run m' fuel' w' ops' = .ret (v', outs')) (hs' : ∀ p ∈ outs', p.1 = .OK)
    (hsnap : w.inst.snap o = w'.inst.snap o') : FMI3.ReachableProper m' t' v' ∧ v.inst.snap o = v'.inst.snap o' := by
  have k' := Snap.follows o' hz' hev'
  rw [← ht] at k'
  obtain ⟨h1, s, h2, h3⟩ := run_lockstep (T := fun s => s.time) (Z := fun s => s.term) (Snap.follows o hz hev) k' hm hm' hrd hrd' hh (by rintro s c rfl; exact ⟨rfl, rfl⟩) (by rintro s c rfl; exact ⟨rfl, rfl⟩)
    ops ops' hsch h hst hops e hs h' hst' hops' hem her e' hs' rfl hsnap.symm
  exact ⟨h1, h2.trans h3.symm⟩

/-- No time events, and nothing ends the simulation. -/
def Calm (mv : MV F D) : Prop :=
  mv.nextEventTimeDefined = false ∧ mv.nextEventTime = Arith.lit 0 ∧ mv.terminateSimulation = false

theorem Calm.inv (he : m.Eff) (hev : ∀ {eu ctx mv mv' s b}, m.eventUpdate = some eu → Calm mv → eu ctx mv = .ret (mv', s, b) → Calm mv')
    (hs : ∀ {ctx mv}, Calm mv → Calm (m.setStartValues ctx mv)) : MVInv m Calm where
  step {f ctx mv mv' s} h e := by
    by_cases hf : f = .event
    · subst hf
      cases e with
      | event h' e => exact hev h' h e
    · obtain ⟨h1, -, -, h4, h5⟩ := (he _ _ _ _ _ e).flags hf
      exact ⟨h4.trans h.1, h5.trans h.2.1, h1.trans h.2.2⟩
  dirty _ h := h
  trace _ h := h
  start h := hs h

theorem Calm.dahlquist : MVInv (Dahlquist.model : Model F _) Calm :=
  Calm.inv (RefFMU2.dahlquist).eff (by intro _ _ _ _ _ _ h; cases h) fun h => h
theorem Calm.vanDerPol : MVInv (VanDerPol.model : Model F _) Calm :=
  Calm.inv (RefFMU2.vanDerPol).eff (by intro _ _ _ _ _ _ h; cases h) fun h => h
theorem Calm.roberts : MVInv (Roberts.model : Model F _) Calm :=
  Calm.inv (RefFMU3.roberts).eff (by intro _ _ _ _ _ _ h; cases h) fun h => h
theorem Calm.bouncingBall : MVInv (BouncingBall.model : Model F _) Calm :=
  Calm.inv (RefFMU2.bouncingBall).eff (by
    intro _ _ _ _ _ _ h hc e; cases h; cases e; refine ⟨rfl, ?_, rfl⟩; split <;> exact hc.2.1) fun h => h
theorem Calm.feedthrough2 : MVInv (Feedthrough.model false : Model F _) Calm :=
  Calm.inv (RefFMU2.feedthrough).eff (by intro _ _ _ _ _ _ h hc e; cases h; cases e; exact ⟨rfl, hc.2.1, rfl⟩) fun h => h
theorem Calm.feedthrough3 : MVInv (Feedthrough.model true : Model F _) Calm :=
  Calm.inv (RefFMU3.feedthrough).eff (by intro _ _ _ _ _ _ h hc e; cases h; cases e; exact ⟨rfl, hc.2.1, rfl⟩) fun h => h

end Verif
