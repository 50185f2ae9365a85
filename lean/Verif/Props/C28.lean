import Verif.Lemmas.Snap
import Verif.Props.C57
import Verif.Lemmas.ExTwin

/-!
# C28: the FMI 2.0 and the FMI 3.0 build compute the same Co-Simulation trajectory
-/

set_option linter.unusedSectionVars false

namespace Verif
variable {F D D' : Type} [Arith F] [HasInf F]

section agree
variable {m : Model F D} {m' : Model F D'} {R R' vars : List (VType × Nat)} {w : FMI2.World F D} {w' : FMI3.World F D'}

theorem FMI3.Readable.all {w' : FMI3.World F D'} (h : FMI3.Readable w'.inst) (t : VType) :
    w'.inst.ctx.state ∈ FMI3.Spec.allowedIn (.get t) := h

/-- What agreement says about a variable. -/
theorem Agree.val (l : Lens m R) (l' : Lens m' R') (h : Agree vars m w m' w')
    (hr : FMI2.Readable w.inst) (hr' : FMI3.Readable w'.inst) {t : VType} {r : Nat} (hv : (t, r) ∈ vars) (hR : (t, r) ∈ R)
    (hR' : (t, r) ∈ R') :
    l.val t r w.inst.ctx.time w.inst.mv.data = l'.val t r w'.inst.ctx.time w'.inst.mv.data := by
  obtain ⟨x, h1, h2⟩ := h t r hv
  rw [← h1.unique (FMI2.reads_lens l hR h1.hasType hr), ← h2.unique (FMI3.reads_lens l' hR' (hr'.all t))]

theorem Agree.of_val (l : Lens m R) (l' : Lens m' R') (hr : FMI2.Readable w.inst) (hr' : FMI3.Readable w'.inst)
    (h : ∀ t r, (t, r) ∈ vars → FMI2.hasType t ∧ (t, r) ∈ R ∧ (t, r) ∈ R' ∧
      l.val t r w.inst.ctx.time w.inst.mv.data = l'.val t r w'.inst.ctx.time w'.inst.mv.data) :
    Agree vars m w m' w' := by
  intro t r hv
  obtain ⟨h1, h2, h3, h4⟩ := h t r hv
  exact ⟨_, FMI2.reads_lens l h2 h1 hr, by rw [h4]; exact FMI3.reads_lens l' h3 (hr'.all t)⟩

theorem Agree.readable (h : Agree vars m w m' w') (hv : (.float64, 0) ∈ vars) : FMI2.Readable w.inst :=
  (h _ _ hv).elim fun _ h => FMI2.ReadsReal.readable h.1

end agree

/-- The simulations of an FMU without event indicators. -/
theorem Simulates.snap {m m' : Model F D} (o : Ode m) (o' : Ode m') (hz : o.nz = 0) (hz' : o'.nz = 0) {ev : Snap F D → Snap F D}
    (hev : ∀ {c c' : Comp F D} {eu st}, m.eventUpdate = some eu → c.lift (eu c.ctx c.mv) = .ret (c', st, ()) →
      c'.snap o = ev (c.snap o))
    (hev' : ∀ {c c' : Comp F D} {eu st}, m'.eventUpdate = some eu → c.lift (eu c.ctx c.mv) = .ret (c', st, ()) →
      c'.snap o' = ev (c.snap o'))
    (ht : Snap.tick o ev = Snap.tick o' ev) (hh : m'.h = m.h)
    (hm : RefFMU2 m) (hm' : RefFMU3 m') (hrd : m.ReadsUpTo o.calc') (hrd' : m'.ReadsUpTo o'.calc')
    {start : FMI2.World F D → Prop} {start' : FMI3.World F D → Prop}
    (hstart : ∀ w, start w → FMI2.Reachable m .coSimulation w) (hstart' : ∀ w, start' w → FMI3.ReachableCS m' false false w)
    {w₁ w₂ : FMI2.World F D} {w₁' w₂' : FMI3.World F D} {steps}
    (h : FMI2.Simulates m start w₁ w₂ steps) (h' : FMI3.Simulates m' start' w₁' w₂' steps)
    (hre : FMI2.Readable w₁.inst)
    (hsnap : w₁.inst.times.nSteps = 0 → w₁'.inst.times.nSteps = 0 → w₁.inst.ctx.time = w₁.inst.startTime →
      w₁'.inst.ctx.time = w₁'.inst.startTime → w₁.inst.snap o = w₁'.inst.snap o') :
    w₂.inst.snap o = w₂'.inst.snap o' ∧ FMI2.Readable w₂.inst ∧ FMI3.Readable w₂'.inst := by
  obtain ⟨w, f₁, x, fuel, ops, outs, hw, e₁, hops, e₂, hs, hsch⟩ := h
  obtain ⟨w', f₁', x', fuel', ops', outs', hw', e₁', hops', e₂', hs', hsch'⟩ := h'
  have hk := hm.eff.okOrError
  have hk' := hm'.eff.okOrError
  have hr := hstart _ hw
  have hr' := (hstart' _ hw').proper
  have hsw := ((hstart' _ hw').call e₁' (by intro h; cases h)).switches hk'
  obtain ⟨hz1, ht1⟩ := FMI2.exit_start hk hr e₁
  obtain ⟨hz2, ht2, hst⟩ := FMI3.exit_start hk' (hr'.reachable hk') e₁'
  obtain ⟨hr2, hs2⟩ := Snap.lockstep o o' hz hz' hev hev' ht hh hm hm' hrd hrd' ops ops' (hsch.trans hsch'.symm)
    (FMI2.Reachable.call hk hr e₁) (FMI2.exit_started hk hr e₁) hops e₂ hs
    (.call hr' e₁' (by intro h; cases h)) hst hops' hsw.1 hsw.2 e₂' hs' (hsnap hz1 hz2 ht1 ht2)
  exact ⟨hs2, FMI2.run_readable hk hre hops e₂, (hr2.reachable hk').readable hk'⟩

theorem FMI2.Simulates.first {m : Model F D} (hk : OkOrError m) {start} (hstart : ∀ w, start w → Reachable m .coSimulation w)
    {w₁ w₂ : World F D} {steps} (h : Simulates m start w₁ w₂ steps) : Reachable m .coSimulation w₁ := by
  obtain ⟨w, f₁, x, fuel, ops, outs, hw, e₁, -⟩ := h
  exact Reachable.call hk (hstart _ hw) e₁

theorem FMI3.Simulates.first {m : Model F D} {emu era : Bool} {start} (hstart : ∀ w, start w → ReachableCS m emu era w)
    {w₁ w₂ : World F D} {steps} (h : Simulates m start w₁ w₂ steps) : ReachableCS m emu era w₁ := by
  obtain ⟨w, f₁, x, fuel, ops, outs, hw, e₁, -⟩ := h
  exact (hstart _ hw).call e₁ (by intro h; cases h)

/-- Two instances behind their initialisation. -/
theorem Snap.eq_of {m m' : Model F D} {o : Ode m} {o' : Ode m'} {c c' : Comp F D} (hd : o.calc' c.mv.data = o'.calc' c'.mv.data)
    (ht : c.ctx.time = c'.ctx.time) (hc : Calm c.mv) (hc' : Calm c'.mv) (hz1 : c.times.nSteps = 0) (hz2 : c'.times.nSteps = 0)
    (ht1 : c.ctx.time = c.startTime) (ht2 : c'.ctx.time = c'.startTime) : c.snap o = c'.snap o' := by
  unfold Comp.snap
  rw [hd, hc.1, hc'.1, hc.2.1, hc'.2.1, hc.2.2, hc'.2.2, ← ht1, ← ht2, ht, show c.nSteps = 0 from hz1,
    show c'.nSteps = 0 from hz2]

/-- The end of the proofs below: equal snapshots show the same variables. -/
theorem Agree.of_snap {m : Model F D} {R : List (VType × Nat)} (l : Lens m R) (o : Ode m) (hu : o.calc' = l.upd)
    (hR : ∀ p ∈ R, FMI2.hasType p.1) {w : FMI2.World F D} {w' : FMI3.World F D} (hs : w.inst.snap o = w'.inst.snap o)
    (hr : FMI2.Readable w.inst) (hr' : FMI3.Readable w'.inst) : Agree R m w m w' := by
  have hd := congrArg Snap.data hs
  have ht := congrArg Snap.time hs
  simp only [Comp.snap] at hd ht
  refine .of_val l l hr hr' fun t r h => ⟨hR _ h, h, h, ?_⟩
  rw [← l.upd_val t r _ w.inst.mv.data, ← l.upd_val t r _ w'.inst.mv.data, ← hu, hd, ht]

/-- **C28** for the Dahlquist FMU, for every arithmetic: let an FMI 2.0 and an FMI 3.0 instance (without Event Mode and early
return) report the same values of all variables after their initialisation. If they are simulated with the same communication
steps, they report the same values of all variables at the end. -/
theorem C28_dahlquist {w₁ w₂ : FMI2.World F (Dahlquist.Data F)} {w₁' w₂' : FMI3.World F (Dahlquist.Data F)} {steps}
    (h : FMI2.Simulates Dahlquist.model (FMI2.Reachable Dahlquist.model .coSimulation) w₁ w₂ steps)
    (h' : FMI3.Simulates Dahlquist.model (FMI3.ReachableCS Dahlquist.model false false) w₁' w₂' steps)
    (ha : Agree [(.float64, 0), (.float64, 1), (.float64, 2), (.float64, 3)] Dahlquist.model w₁ Dahlquist.model w₁') :
    Agree [(.float64, 0), (.float64, 1), (.float64, 2), (.float64, 3)] Dahlquist.model w₂ Dahlquist.model w₂' := by
  have hm : RefFMU2 (Dahlquist.model : Model F _) := .dahlquist
  have hm' : RefFMU3 (Dahlquist.model : Model F _) := .dahlquist
  have hk := hm.eff.okOrError
  have r1 := h.first hk fun _ h => h
  have r1' := (h'.first fun _ h => h).proper.reachable hk
  have hre := ha.readable (by simp)
  have hre' := r1'.readable hk
  have q := fun {t r} => ha.val Lens.dahlquist Lens.dahlquist hre hre' (t := t) (r := r)
  obtain ⟨hs, hr, hr'⟩ := Simulates.snap Dahlquist.ode Dahlquist.ode rfl rfl (ev := id) (by intro _ _ _ _ h; cases h)
    (by intro _ _ _ _ h; cases h) rfl rfl hm hm' Dahlquist.reads Dahlquist.reads (fun _ h => h) (fun _ h => h) h h' hre (by
      intro hz1 hz2 ht1 ht2
      have e0 := q (t := .float64) (r := 0) (by simp) (by simp) (by simp)
      have e1 := q (t := .float64) (r := 1) (by simp) (by simp) (by simp)
      have e3 := q (t := .float64) (r := 3) (by simp) (by simp) (by simp)
      simp only [Lens.dahlquist] at e0 e1 e3
      refine Snap.eq_of ?_ e0 (FMI2.Reachable.mv hk Calm.dahlquist ⟨rfl, rfl, rfl⟩ r1).inst
        (FMI3.Reachable.mv hk Calm.dahlquist ⟨rfl, rfl, rfl⟩ r1').inst hz1 hz2 ht1 ht2
      generalize w₁.inst.mv.data = a at *
      generalize w₁'.inst.mv.data = b at *
      cases a; cases b
      simp only at e1 e3
      simp only [Dahlquist.ode, e1, e3])
  exact .of_snap Lens.dahlquist Dahlquist.ode rfl (by simp [FMI2.hasType]) hs hr hr'

/-- **C28** for the VanDerPol FMU, for every arithmetic: as for the Dahlquist FMU. -/
theorem C28_vanDerPol {w₁ w₂ : FMI2.World F (VanDerPol.Data F)} {w₁' w₂' : FMI3.World F (VanDerPol.Data F)} {steps}
    (h : FMI2.Simulates VanDerPol.model (FMI2.Reachable VanDerPol.model .coSimulation) w₁ w₂ steps)
    (h' : FMI3.Simulates VanDerPol.model (FMI3.ReachableCS VanDerPol.model false false) w₁' w₂' steps)
    (ha : Agree [(.float64, 0), (.float64, 1), (.float64, 2), (.float64, 3), (.float64, 4), (.float64, 5)]
      VanDerPol.model w₁ VanDerPol.model w₁') :
    Agree [(.float64, 0), (.float64, 1), (.float64, 2), (.float64, 3), (.float64, 4), (.float64, 5)]
      VanDerPol.model w₂ VanDerPol.model w₂' := by
  have hm : RefFMU2 (VanDerPol.model : Model F _) := .vanDerPol
  have hm' : RefFMU3 (VanDerPol.model : Model F _) := .vanDerPol
  have hk := hm.eff.okOrError
  have r1 := h.first hk fun _ h => h
  have r1' := (h'.first fun _ h => h).proper.reachable hk
  have hre := ha.readable (by simp)
  have hre' := r1'.readable hk
  have q := fun {t r} => ha.val Lens.vanDerPol Lens.vanDerPol hre hre' (t := t) (r := r)
  obtain ⟨hs, hr, hr'⟩ := Simulates.snap VanDerPol.ode VanDerPol.ode rfl rfl (ev := id) (by intro _ _ _ _ h; cases h)
    (by intro _ _ _ _ h; cases h) rfl rfl hm hm' VanDerPol.reads VanDerPol.reads (fun _ h => h) (fun _ h => h) h h' hre (by
      intro hz1 hz2 ht1 ht2
      have e0 := q (t := .float64) (r := 0) (by simp) (by simp) (by simp)
      have e1 := q (t := .float64) (r := 1) (by simp) (by simp) (by simp)
      have e3 := q (t := .float64) (r := 3) (by simp) (by simp) (by simp)
      have e5 := q (t := .float64) (r := 5) (by simp) (by simp) (by simp)
      simp only [Lens.vanDerPol] at e0 e1 e3 e5
      refine Snap.eq_of ?_ e0 (FMI2.Reachable.mv hk Calm.vanDerPol ⟨rfl, rfl, rfl⟩ r1).inst
        (FMI3.Reachable.mv hk Calm.vanDerPol ⟨rfl, rfl, rfl⟩ r1').inst hz1 hz2 ht1 ht2
      generalize w₁.inst.mv.data = a at *
      generalize w₁'.inst.mv.data = b at *
      cases a; cases b
      simp only at e1 e3 e5
      simp only [VanDerPol.ode, e1, e3, e5])
  exact .of_snap Lens.vanDerPol VanDerPol.ode rfl (by simp [FMI2.hasType]) hs hr hr'

/-- The event handler of the Stair FMU. -/
def Stair.ev (s : Snap F Stair.Data) : Snap F Stair.Data :=
  let s := if s.netd && isClose s.time s.net then { s with data := ⟨s.data.counter + 1⟩, net := s.net +. Arith.lit 1 } else s
  if s.data.counter > 10 then s else { s with term := decide (s.data.counter ≥ 10), netd := true }

theorem Stair.ev_eq {c c' : Comp F Stair.Data} {st} (e : c.lift (Stair.eventUpdate c.ctx c.mv) = .ret (c', st, ())) :
    c'.snap (Stair.ode (F := F)) = Stair.ev (c.snap (Stair.ode (F := F))) := by
  obtain ⟨mv, e0, rfl⟩ := lift_eq_ret.1 e
  clear e
  have key : ∀ (mv1 mv : MV F Stair.Data), (if mv1.data.counter > 10 then
        failM c.ctx mv1 "Variable \"counter\" cannot be incremented for values >= 10." ()
      else .ret ({ mv1 with
        valuesChanged := false, nominalsChanged := false
        terminateSimulation := decide (mv1.data.counter ≥ 10), nextEventTimeDefined := true }, .OK, ())) = .ret (mv, st, ()) →
      Comp.snap (Stair.ode (F := F)) { c with mv := mv } =
        if mv1.data.counter > 10 then Comp.snap (Stair.ode (F := F)) { c with mv := mv1 } else
          { Comp.snap (Stair.ode (F := F)) { c with mv := mv1 } with term := decide (mv1.data.counter ≥ 10), netd := true } := by
    intro mv1 mv e
    split at e
    · next hc =>
      rw [if_pos hc]
      unfold failM logError at e
      split at e <;> (cases e; rfl)
    · next hc =>
      rw [if_neg hc]
      cases e; rfl
  unfold Stair.eventUpdate at e0
  unfold Stair.ev
  by_cases hc : (c.mv.nextEventTimeDefined && isClose c.ctx.time c.mv.nextEventTime) = true
  · rw [if_pos hc] at e0
    split at e0
    · cases e0
    · rw [Outcome.ret_bind] at e0
      rw [key _ _ e0, if_pos (show (((c.snap (Stair.ode (F := F))).netd && isClose (c.snap (Stair.ode (F := F))).time
        (c.snap (Stair.ode (F := F))).net)) = true from hc)]
      rfl
  · rw [if_neg hc, Outcome.ret_bind] at e0
    rw [key _ _ e0, if_neg (show ¬ (((c.snap (Stair.ode (F := F))).netd && isClose (c.snap (Stair.ode (F := F))).time
        (c.snap (Stair.ode (F := F))).net)) = true from hc)]
    rfl

theorem FMI2.Prepared.call {m : Model F D} {w w' : World F D} (h : Prepared m w) {fuel op s o}
    (e : step m fuel w op = .ret (w', s, o)) (hop : op.fn ∉ [FMI2.Fn.doStep, .newDiscreteStates, .setFMUstate]) :
    Prepared m w' := by
  obtain ⟨_, _, _, _, _, _, c, l, w₀, h1, h2, h3⟩ := h
  exact ⟨_, _, _, _, _, _, c, l, w₀, h1, h2, h3.call hop e⟩

theorem FMI3.Prepared.call {m : Model F D} {emu era : Bool} {w w' : World F D} (h : Prepared m emu era w) {fuel op s o}
    (e : step m fuel w op = .ret (w', s, o))
    (hop : op.fn ∉ [FMI3.Fn.doStep, .updateDiscreteStates, .setFMUState, .enterStepMode]) : Prepared m emu era w' := by
  obtain ⟨_, _, _, _, _, _, _, c, l, w₀, h1, h2, h3⟩ := h
  exact ⟨_, _, _, _, _, _, _, c, l, w₀, h1, h2, h3.call hop e⟩

/-- The event flags of a Stair FMU that was not simulated. -/
def Stair.fresh (netd : Bool) (net : F) (term : Bool) : Prop := netd = true ∧ net = Arith.lit 1 ∧ term = false

theorem FMI2.Prepared.stair {w : World F Stair.Data} (h : Prepared Stair.model w) : w.inst.EventFlags Stair.fresh :=
  h.flags (RefFMU2.stair).eff (fun _ _ h => ⟨rfl, rfl, h.2.2⟩) (fun _ _ h _ _ => ⟨rfl, rfl, h⟩)

theorem FMI3.Prepared.stair {emu era : Bool} {w : World F Stair.Data} (h : Prepared Stair.model emu era w) :
    w.inst.EventFlags Stair.fresh :=
  h.flags (RefFMU3.stair).eff (fun _ _ h => ⟨rfl, rfl, h.2.2⟩) (fun _ _ h _ _ => ⟨rfl, rfl, h⟩)

/-- **C28** for the Stair FMU, for every arithmetic: let an FMI 2.0 and an FMI 3.0 instance (without Event Mode and early
return) that have not been simulated before report the same time and the same counter after their initialisation. If they are
simulated with the same communication steps, they report the same time and the same counter at the end. -/
theorem C28_stair {w₁ w₂ : FMI2.World F Stair.Data} {w₁' w₂' : FMI3.World F Stair.Data} {steps}
    (h : FMI2.Simulates Stair.model (FMI2.Prepared Stair.model) w₁ w₂ steps)
    (h' : FMI3.Simulates Stair.model (FMI3.Prepared Stair.model false false) w₁' w₂' steps)
    (ha : Agree [(.float64, 0), (.int32, 1)] Stair.model w₁ Stair.model w₁') :
    Agree [(.float64, 0), (.int32, 1)] Stair.model w₂ Stair.model w₂' := by
  have hm : RefFMU2 (Stair.model : Model F _) := .stair
  have hm' : RefFMU3 (Stair.model : Model F _) := .stair
  have hk := hm.eff.okOrError
  have f1 : w₁.inst.EventFlags Stair.fresh := by
    obtain ⟨w, f₁, x, fuel, ops, outs, hw, e₁, -⟩ := h
    exact (hw.call e₁ (by simp [FMI2.Op.fn])).stair
  have p1' : FMI3.Prepared Stair.model false false w₁' := by
    obtain ⟨w, f₁, x, fuel, ops, outs, hw, e₁, -⟩ := h'
    exact hw.call e₁ (by simp [FMI3.Op.fn])
  have f1' := p1'.stair
  have hre := ha.readable (by simp)
  have hre' := (p1'.reachable.proper.reachable hk).readable hk
  have q := fun {t r} => ha.val Lens.stair Lens.stair hre hre' (t := t) (r := r)
  obtain ⟨hs, hr, hr'⟩ := Simulates.snap Stair.ode Stair.ode rfl rfl (ev := Stair.ev)
    (by intro _ _ _ _ h e; cases h; exact Stair.ev_eq e)
    (by intro _ _ _ _ h e; cases h; exact Stair.ev_eq e) rfl rfl hm hm' Stair.reads Stair.reads
    (fun _ h => h.reachable hk) (fun _ h => h.reachable) h h' hre (by
      intro hz1 hz2 ht1 ht2
      have e0 := q (t := .float64) (r := 0) (by simp) (by simp) (by simp)
      have e1 := q (t := .int32) (r := 1) (by simp) (by simp) (by simp)
      simp only [Lens.stair] at e0 e1
      obtain ⟨a1, a2, a3⟩ := f1
      obtain ⟨b1, b2, b3⟩ := f1'
      unfold Comp.snap
      rw [a1, a2, a3, b1, b2, b3, ← ht1, ← ht2, e0, show w₁.inst.nSteps = 0 from hz1, show w₁'.inst.nSteps = 0 from hz2]
      generalize w₁.inst.mv.data = a at *
      generalize w₁'.inst.mv.data = b at *
      cases a; cases b
      simp only at e1
      simp only [e1])
  exact .of_snap Lens.stair Stair.ode rfl (by simp [FMI2.hasType]) hs hr hr'

/-- A machine and the event flags of an FMU that has no time events and does not end the simulation. -/
theorem Follows.calm {m : Model F D} {o : Ode m} {S : Type} {tick : S → S} {R P : S → Comp F D → Prop} (k : Follows o tick R P)
    (hc : MVInv m Calm) :
    Follows o tick (fun s c => R s c ∧ Calm c.mv) (fun s c => P s c ∧ Calm c.mv) where
  step {s c c' se te} hr h e := by
    have h1 := k.step hr h.1 e
    have h2 : Calm c'.mv := by
      obtain ⟨c2, e2, -, -, -, -, hmv⟩ := o.fixedStep_eq hr
      rw [e] at e2
      cases e2
      rw [hmv]; exact h.2
    split
    · next hc => rw [if_pos hc] at h1; exact ⟨h1, h2⟩
    · next hc => rw [if_neg hc] at h1; exact ⟨h1, h2⟩
  event {s c c' eu st} h he e := by
    refine ⟨k.event h.1 he e, ?_⟩
    obtain ⟨mv, e1, rfl⟩ := lift_eq_ret.1 e
    exact hc.step h.2 (.event he e1)
  update {s c c' eu} h he e := by
    obtain ⟨s', h'⟩ := k.update h.1 he e
    obtain ⟨mv, e1, rfl⟩ := lift_eq_ret.1 e
    exact ⟨s', h', hc.step h.2 (.event he e1)⟩
  keep {s c c'} h a := ⟨k.keep h.1 a, a.kept.netd.trans h.2.1, a.kept.net.trans h.2.2.1, a.kept.term.trans h.2.2.2⟩
  keepP {s c c'} h a := ⟨k.keepP h.1 a, a.kept.netd.trans h.2.1, a.kept.net.trans h.2.2.1, a.kept.term.trans h.2.2.2⟩

/-- The simulations of an FMU without time events that does not end the simulation. -/
theorem Simulates.calm {m : Model F D} {m' : Model F D'} {o : Ode m} {o' : Ode m'} {S : Type} {tick : S → S}
    {R P : S → Comp F D → Prop} {R' P' : S → Comp F D' → Prop} (k : Follows o tick R P) (k' : Follows o' tick R' P')
    (hc : MVInv m Calm) (hc' : MVInv m' Calm) (h0 : Calm (MV.zero m)) (h0' : Calm (MV.zero m')) (hh : m'.h = m.h)
    (hm : RefFMU2 m) (hm' : RefFMU3 m') (hrd : m.ReadsUpTo o.calc') (hrd' : m'.ReadsUpTo o'.calc')
    {w₁ w₂ : FMI2.World F D} {w₁' w₂' : FMI3.World F D'} {steps}
    (h : FMI2.Simulates m (FMI2.Reachable m .coSimulation) w₁ w₂ steps)
    (h' : FMI3.Simulates m' (FMI3.ReachableCS m' false false) w₁' w₂' steps)
    (hre : FMI2.Readable w₁.inst) (ht : w₁.inst.ctx.time = w₁'.inst.ctx.time) {s : S} (hs : R s w₁.inst) (hs' : R' s w₁'.inst) :
    (∃ s', R s' w₂.inst ∧ R' s' w₂'.inst) ∧ w₂.inst.ctx.time = w₂'.inst.ctx.time ∧ FMI2.Readable w₂.inst ∧
      FMI3.Readable w₂'.inst := by
  obtain ⟨w, f₁, x, fuel, ops, outs, hr, e₁, hops, e₂, ho, hsch⟩ := h
  obtain ⟨w', f₁', x', fuel', ops', outs', hw', e₁', hops', e₂', ho', hsch'⟩ := h'
  have hk := hm.eff.okOrError
  have hk' := hm'.eff.okOrError
  have hr' := hw'.proper
  have hsw := (hw'.call e₁' (by intro h; cases h)).switches hk'
  obtain ⟨hz1, ht1⟩ := FMI2.exit_start hk hr e₁
  obtain ⟨hz2, ht2, hst⟩ := FMI3.exit_start hk' (hr'.reachable hk') e₁'
  have r1 := FMI2.Reachable.call hk hr e₁
  have r1' := FMI3.ReachableProper.call hr' e₁' (by intro h; cases h)
  have c1 := (FMI2.Reachable.mv hk hc h0 r1).inst
  have c1' := (FMI3.Reachable.mv hk' hc' h0' (r1'.reachable hk')).inst
  have t1 := (k.calm hc).timed (by
    rintro s c c' eu st h he e
    have hca : Calm c.mv := h.elim (·.2) (·.2)
    obtain ⟨mv, e1, rfl⟩ := lift_eq_ret.1 e
    exact (hc.step hca (.event he e1)).2.2.trans hca.2.2.symm)
  have t2 := (k'.calm hc').timed (by
    rintro s c c' eu st h he e
    have hca : Calm c.mv := h.elim (·.2) (·.2)
    obtain ⟨mv, e1, rfl⟩ := lift_eq_ret.1 e
    exact (hc'.step hca (.event he e1)).2.2.trans hca.2.2.symm)
  rw [hh] at t2
  obtain ⟨g1, ⟨s', p⟩, ⟨⟨g2, -⟩, g3⟩, ⟨g4, -⟩, g5⟩ := run_lockstep (T := fun s => s.2.time) (Z := fun s => s.2.term) t1 t2 hm hm'
    hrd hrd' hh (by rintro s c ⟨-, h⟩; rw [← h]; exact ⟨rfl, rfl⟩) (by rintro s c ⟨-, h⟩; rw [← h]; exact ⟨rfl, rfl⟩)
    ops ops' (hsch.trans hsch'.symm) r1 (FMI2.exit_started hk hr e₁) hops e₂ ho r1' hst hops' hsw.1 hsw.2 e₂' ho'
    (s := (s, w₁.inst.progress)) ⟨⟨hs, c1⟩, rfl⟩ ⟨⟨hs', c1'⟩, by
      have a1 : w₁.inst.ctx.time = w₁.inst.startTime := ht1
      have a2 : w₁'.inst.ctx.time = w₁'.inst.startTime := ht2
      unfold Comp.progress
      rw [c1.2.2, c1'.2.2, ← a1, ← a2, ht, show w₁.inst.nSteps = 0 from hz1, show w₁'.inst.nSteps = 0 from hz2]⟩
  refine ⟨⟨s', g2, g4⟩, ?_, FMI2.run_readable hk hre hops e₂, (g1.reachable hk').readable hk'⟩
  have := congrArg Progress.time (g3.trans g5.symm)
  exact this

/-- **C28** for the BouncingBall FMU, in exact arithmetic: let an FMI 2.0 and an FMI 3.0 instance (without Event Mode and early
return) report the same values of all variables after their initialisation, none of them infinite. If they are simulated with
the same communication steps, they report the same values of all variables at the end. -/
theorem C28_bouncingBall_partial {w₁ w₂ : FMI2.World XRat (BouncingBall.Data XRat)} {w₁' w₂' : FMI3.World XRat (BouncingBall.Data XRat)}
    {steps} (h : FMI2.Simulates BouncingBall.model (FMI2.Reachable BouncingBall.model .coSimulation) w₁ w₂ steps)
    (h' : FMI3.Simulates BouncingBall.model (FMI3.ReachableCS BouncingBall.model false false) w₁' w₂' steps)
    (ha : Agree [(.float64, 0), (.float64, 1), (.float64, 2), (.float64, 3), (.float64, 4), (.float64, 5), (.float64, 6), (.float64, 7)]
      BouncingBall.model w₁ BouncingBall.model w₁') {b : Ball} (hb : FMI2.ReadsBall w₁ b) :
    Agree [(.float64, 0), (.float64, 1), (.float64, 2), (.float64, 3), (.float64, 4), (.float64, 5), (.float64, 6), (.float64, 7)]
      BouncingBall.model w₂ BouncingBall.model w₂' := by
  have hm : RefFMU2 (BouncingBall.model : Model XRat _) := .bouncingBall
  have hm' : RefFMU3 (BouncingBall.model : Model XRat _) := .bouncingBall
  have hk := hm.eff.okOrError
  have r1' := (h'.first fun _ h => h).proper.reachable hk
  have hre := ha.readable (by simp)
  have hre' := r1'.readable hk
  have q := fun {t r} => ha.val Lens.bouncingBall Lens.bouncingBall hre hre' (t := t) (r := r)
  have e0 := q (t := .float64) (r := 0) (by simp) (by simp) (by simp)
  have e1 := q (t := .float64) (r := 1) (by simp) (by simp) (by simp)
  have e3 := q (t := .float64) (r := 3) (by simp) (by simp) (by simp)
  have e5 := q (t := .float64) (r := 5) (by simp) (by simp) (by simp)
  have e6 := q (t := .float64) (r := 6) (by simp) (by simp) (by simp)
  simp only [Lens.bouncingBall] at e0 e1 e3 e5 e6
  have hd : w₁'.inst.mv.data = .of b := by
    rw [← hb.data]
    generalize w₁.inst.mv.data = x at *
    generalize w₁'.inst.mv.data = y at *
    cases x; cases y
    simp only at e1 e3 e5 e6
    simp only [e1, e3, e5, e6]
  have o1 : BouncingBall.On b w₁.inst := by
    obtain ⟨w, f₁, x, fuel, ops, outs, hw, e₁, -⟩ := h
    exact FMI2.exit_on hw e₁ hb
  have o2 : BouncingBall.On b w₁'.inst := by
    obtain ⟨w, f₁, x, fuel, ops, outs, hw, e₁, -⟩ := h'
    exact FMI3.exit_on hw.proper e₁ (.of_data hd hre')
  obtain ⟨⟨s, h1, h2⟩, ht, hr, hr'⟩ := Simulates.calm BouncingBall.follows BouncingBall.follows Calm.bouncingBall Calm.bouncingBall
    ⟨rfl, rfl, rfl⟩ ⟨rfl, rfl, rfl⟩ rfl hm hm' BouncingBall.reads BouncingBall.reads h h' hre e0 o1 o2
  refine .of_val Lens.bouncingBall Lens.bouncingBall hr hr' fun t r h => ⟨?_, h, h, by rw [ht, h1.data, h2.data]⟩
  exact (show ∀ p ∈ _, FMI2.hasType p.1 by simp [FMI2.hasType]) _ h

/-- The Feedthrough FMU has no continuous part. -/
def Feedthrough.ode' (b : Bool) : Ode (Feedthrough.model b : Model F (Feedthrough.Data F)) :=
  { Feedthrough.ode b with
    calc' := Feedthrough.upd
    calc_calc := fun _ => rfl
    states_calc := fun _ => rfl
    derivs_calc := fun _ => rfl
    inds_calc := fun _ => rfl
    upd_calc := fun _ _ => rfl
    getStates := fun h => absurd h (Nat.lt_irrefl 0)
    getDerivs := fun h => absurd h (Nat.lt_irrefl 0)
    setStates := fun h => absurd h (Nat.lt_irrefl 0)
    getInds := fun h => absurd h (Nat.lt_irrefl 0) }

theorem Feedthrough.follows (b : Bool) (d : Feedthrough.Data F) :
    Follows (Feedthrough.ode' b : Ode (Feedthrough.model b : Model F _)) (id : Unit → Unit)
      (fun _ c => Feedthrough.upd c.mv.data = d) (fun _ c => Feedthrough.upd c.mv.data = d) where
  step {s c c' se te} hr h e := by
    obtain ⟨c2, e2, -, -, -, hd, -⟩ := (Feedthrough.ode' b : Ode (Feedthrough.model b : Model F _)).fixedStep_eq hr
    rw [e] at e2
    cases e2
    have : Feedthrough.upd c'.mv.data = d := by rw [← h]; exact hd
    split <;> exact this
  event {s c c' eu st} h he e := by
    cases he; cases e; exact h
  update {s c c' eu} h he e := by
    cases he; cases e; exact ⟨(), h⟩
  keep h a := a.kept.data.trans h
  keepP h a := a.kept.data.trans h

theorem Feedthrough.reads (b : Bool) : (Feedthrough.model b : Model F (Feedthrough.Data F)).ReadsUpTo Feedthrough.upd := by
  have hu : ∀ d : Feedthrough.Data F, Feedthrough.upd (Feedthrough.upd d) = Feedthrough.upd d := fun _ => rfl
  apply Model.ReadsUpTo.intro
  case get =>
    intro t ctx mv vr p n i
    cases t <;> cases b <;> simp only [Feedthrough.model, Feedthrough.getFloat64, Feedthrough.getFloat32, Feedthrough.getInt8, Feedthrough.getUInt8,
      Feedthrough.getInt16, Feedthrough.getUInt16, Feedthrough.getInt32, Feedthrough.getUInt32, Feedthrough.getInt64, Feedthrough.getUInt64,
      Feedthrough.getBoolean, Feedthrough.getString, Feedthrough.getBinary] <;> mkeep hu
  case od => intro eu h; cases h
  all_goals
    intros
    simp only [Feedthrough.model]
    mkeep hu

/-- **C28** for the Feedthrough FMU, for every arithmetic and the variables that have the same type in both versions (all
variables of the FMI 2.0 build except the enumerations, which are `Int64` in FMI 3.0): as for the Dahlquist FMU. -/
theorem C28_feedthrough {vars : List (VType × Nat)}
    (hv : vars = [(.float64, 0), (.float64, 5), (.float64, 6), (.float64, 7), (.float64, 8), (.float64, 9), (.float64, 10),
      (.int32, 19), (.int32, 20), (.boolean, 27), (.boolean, 28), (.string, 29), (.string, 30)])
    {w₁ w₂ : FMI2.World F (Feedthrough.Data F)} {w₁' w₂' : FMI3.World F (Feedthrough.Data F)} {steps}
    (h : FMI2.Simulates (Feedthrough.model false) (FMI2.Reachable (Feedthrough.model false) .coSimulation) w₁ w₂ steps)
    (h' : FMI3.Simulates (Feedthrough.model true) (FMI3.ReachableCS (Feedthrough.model true) false false) w₁' w₂' steps)
    (ha : Agree vars (Feedthrough.model false) w₁ (Feedthrough.model true) w₁') :
    Agree vars (Feedthrough.model false) w₂ (Feedthrough.model true) w₂' := by
  have hm : RefFMU2 (Feedthrough.model false : Model F _) := .feedthrough
  have hm' : RefFMU3 (Feedthrough.model true : Model F _) := .feedthrough
  have hk := hm.eff.okOrError
  have hk' := hm'.eff.okOrError
  have r1' := (h'.first fun _ h => h).proper.reachable hk'
  have hre := ha.readable (by simp [hv])
  have hre' := r1'.readable hk'
  have s2 : ∀ p ∈ vars, FMI2.hasType p.1 := by subst hv; simp [FMI2.hasType]
  have hR : ∀ p ∈ vars, p ∈ [(VType.float64, 0), (.float64, 5), (.float64, 6), (.float64, 7), (.float64, 8), (.float64, 9), (.float64, 10), (.int32, 19), (.int32, 20),
      (.boolean, 27), (.boolean, 28), (.string, 29), (.string, 30), (.int32, 33), (.int32, 34)] := by subst hv; decide
  have hR' : ∀ p ∈ vars, p ∈ [(VType.float64, 0), (.float32, 1), (.float32, 2), (.float32, 3), (.float32, 4), (.float64, 5), (.float64, 6), (.float64, 7), (.float64, 8),
      (.float64, 9), (.float64, 10), (.int8, 11), (.int8, 12), (.uint8, 13), (.uint8, 14), (.int16, 15), (.int16, 16), (.uint16, 17), (.uint16, 18), (.int32, 19), (.int32, 20),
      (.uint32, 21), (.uint32, 22), (.int64, 23), (.int64, 24), (.uint64, 25), (.uint64, 26), (.boolean, 27), (.boolean, 28), (.string, 29), (.string, 30), (.binary, 31), (.binary, 32),
      (.int64, 33), (.int64, 34)] := by subst hv; decide
  have q := fun {t r} => ha.val Lens.feedthrough2 Lens.feedthrough3 hre hre' (t := t) (r := r)
  have e0 := q (t := .float64) (r := 0) (by simp [hv]) (by simp) (by simp)
  simp only [Lens.feedthrough2, Lens.feedthrough3] at e0
  obtain ⟨⟨-, h1, h2⟩, ht, hr, hr'⟩ := Simulates.calm (Feedthrough.follows false (Feedthrough.upd w₁.inst.mv.data))
    (Feedthrough.follows true (Feedthrough.upd w₁'.inst.mv.data)) Calm.feedthrough2 Calm.feedthrough3
    ⟨rfl, rfl, rfl⟩ ⟨rfl, rfl, rfl⟩ rfl hm hm' (Feedthrough.reads _) (Feedthrough.reads _) h h' hre e0 (s := ()) rfl rfl
  refine .of_val Lens.feedthrough2 Lens.feedthrough3 hr hr' fun t r h => ⟨s2 _ h, hR _ h, hR' _ h, ?_⟩
  have e := q h (hR _ h) (hR' _ h)
  rw [← Lens.feedthrough2.upd_val t r _ w₁.inst.mv.data, ← Lens.feedthrough3.upd_val t r _ w₁'.inst.mv.data] at e
  rw [← Lens.feedthrough2.upd_val t r _ w₂.inst.mv.data, ← Lens.feedthrough3.upd_val t r _ w₂'.inst.mv.data]
  have h1 : Lens.feedthrough2.upd w₂.inst.mv.data = Lens.feedthrough2.upd w₁.inst.mv.data := h1
  have h2 : Lens.feedthrough3.upd w₂'.inst.mv.data = Lens.feedthrough3.upd w₁'.inst.mv.data := h2
  rw [h1, h2]
  subst hv
  simp only [List.mem_cons, List.not_mem_nil, or_false, Prod.mk.injEq] at h
  rcases h with ⟨rfl, rfl⟩ | ⟨rfl, rfl⟩ | ⟨rfl, rfl⟩ | ⟨rfl, rfl⟩ | ⟨rfl, rfl⟩ | ⟨rfl, rfl⟩ | ⟨rfl, rfl⟩ | ⟨rfl, rfl⟩ | ⟨rfl, rfl⟩ |
    ⟨rfl, rfl⟩ | ⟨rfl, rfl⟩ | ⟨rfl, rfl⟩ | ⟨rfl, rfl⟩
  · exact ht
  all_goals exact e

/-! Non-vacuity: two simulations as in the theorems, with what they report at the end. -/

section examples
open Ex

/-- The calls of the examples. -/
def C28.steps2 (a b : Rat) : List (FMI2.Op XRat) :=
  [.doStep (.fin 0) (.fin a), .getReal (some [0]) 1 (some [.fin 9]), .doStep (.fin a) (.fin b)]
def C28.steps3 (a b : Rat) : List (FMI3.Op XRat) :=
  [.doStep (.fin 0) (.fin a) stepOut, .get .float64 (some [0]) 1 (some [.fin 9]) 1, .doStep (.fin a) (.fin b) stepOut]

theorem C28.instance_of {D D' : Type} {m : Model XRat D} {m' : Model XRat D'} {R R' : List (VType × Nat)} (l : Lens m R) (l' : Lens m' R')
    {start : FMI2.World XRat D → Prop} {start' : FMI3.World XRat D' → Prop} (vars : List (VType × Nat)) {pre pre' a b t₂}
    (hst : ∀ w outs, run2 m .coSimulation pre = .ret (w, outs) → start w)
    (hst' : ∀ w outs, runCS3 m' false false pre' = .ret (w, outs) → start' w)
    {vals : (t : VType) → Nat → t.Val XRat} {t : VType} {r : Nat} {v : t.Val XRat}
    (h : sim2 m pre (C28.steps2 a b) (fun w₁ w₂ => decide (w₁.inst.ctx.state ∈ FMI2.Spec.allowedIn .getReal) &&
      vars.all (fun p => has l w₁.inst p.1 p.2 (vals p.1 p.2)) && decide (w₂.inst.ctx.state ∈ FMI2.Spec.allowedIn .getReal) &&
      decide (w₂.inst.ctx.time = t₂) && has l w₂.inst t r v) = true)
    (h' : sim3 m' false false pre' (C28.steps3 a b) (fun w₁ _ => decide (w₁.inst.ctx.state ∈ FMI3.Spec.allowedIn (.get .float64)) &&
      vars.all (fun p => has l' w₁.inst p.1 p.2 (vals p.1 p.2))) = true)
    (hv : ∀ p ∈ vars, FMI2.hasType p.1 ∧ p ∈ R ∧ p ∈ R') (ht : FMI2.hasType t) (hr : (t, r) ∈ R) :
    ∃ w₁ w₂ w₁' w₂' steps, FMI2.Simulates m start w₁ w₂ steps ∧ FMI3.Simulates m' start' w₁' w₂' steps ∧
      Agree vars m w₁ m' w₁' ∧ steps = [(.fin 0, .fin a), (.fin a, .fin b)] ∧ w₂.inst.ctx.time = t₂ ∧ FMI2.Reads m w₂ t r v := by
  obtain ⟨w₁, w₂, s, h⟩ := simulates2 h hst (by simp [C28.steps2, FMI2.Interferes, FMI2.Op.fn])
  obtain ⟨w₁', w₂', s', h'⟩ := simulates3 h' hst' (by simp [C28.steps3, FMI3.Interferes, FMI3.Op.fn])
  simp only [Bool.and_eq_true, List.all_eq_true, decide_eq_true_eq, has] at h h'
  refine ⟨w₁, w₂, w₁', w₂', _, s, s', .of_val l l' h.1.1.1.1 h'.1 fun t r hp => ⟨(hv _ hp).1, (hv _ hp).2.1, (hv _ hp).2.2, ?_⟩, rfl,
    h.1.2, ?_⟩
  · rw [h.1.1.1.2 _ hp, h'.2 _ hp]
  · rw [← h.2]; exact FMI2.reads_lens l hr ht h.1.1.2

example : ∃ w₁ w₂ w₁' w₂' steps,
    FMI2.Simulates Dahlquist.model (FMI2.Reachable Dahlquist.model .coSimulation) w₁ w₂ steps ∧
    FMI3.Simulates Dahlquist.model (FMI3.ReachableCS Dahlquist.model false false) w₁' w₂' steps ∧
    Agree [(.float64, 0), (.float64, 1), (.float64, 2), (.float64, 3)] (Dahlquist.model : Model XRat _) w₁ Dahlquist.model w₁' ∧
    steps = [(.fin 0, .fin (1 / 4)), (.fin (1 / 4), .fin (1 / 4))] ∧ w₂.inst.ctx.time = .fin (1 / 2) ∧
    FMI2.Reads Dahlquist.model w₂ .float64 1 (.fin (59049 / 50000)) :=
  C28.instance_of Lens.dahlquist Lens.dahlquist _
    (pre := [.setupExperiment (.fin 0) false (.fin 0), .setReal (some [1]) 1 (some [.fin 2]), .enterInitializationMode])
    (pre' := [.set .float64 (some [1]) 1 (some [.fin 2]) 1, .enterInitializationMode (.fin 0) false (.fin 0)])
    (fun _ _ h => reach_run2 h)
    (fun _ _ h => (prepared3 h (by simp [FMI3.Op.fn])).reachable)
    (vals := fun t r => match t, r with
      | .float64, 0 => .fin 0
      | .float64, 1 => .fin 2
      | .float64, 2 => .fin (-2)
      | .float64, 3 => .fin 1
      | t, _ => t.zero)
    (by decide +kernel) (by decide +kernel) (by simp [FMI2.hasType]) (by simp [FMI2.hasType]) (by simp)

example : ∃ w₁ w₂ w₁' w₂' steps,
    FMI2.Simulates VanDerPol.model (FMI2.Reachable VanDerPol.model .coSimulation) w₁ w₂ steps ∧
    FMI3.Simulates VanDerPol.model (FMI3.ReachableCS VanDerPol.model false false) w₁' w₂' steps ∧
    Agree [(.float64, 0), (.float64, 1), (.float64, 2), (.float64, 3), (.float64, 4), (.float64, 5)]
      (VanDerPol.model : Model XRat _) w₁ VanDerPol.model w₁' ∧
    steps = [(.fin 0, .fin (1 / 50)), (.fin (1 / 50), .fin (1 / 100))] ∧ w₂.inst.ctx.time = .fin (3 / 100) ∧
    FMI2.Reads VanDerPol.model w₂ .float64 1 (.fin (999703 / 500000)) :=
  C28.instance_of Lens.vanDerPol Lens.vanDerPol _
    (pre := [.setupExperiment (.fin 0) false (.fin 0), .enterInitializationMode])
    (pre' := [.enterInitializationMode (.fin 0) false (.fin 0)])
    (fun _ _ h => reach_run2 h)
    (fun _ _ h => (prepared3 h (by simp [FMI3.Op.fn])).reachable)
    (vals := fun t r => match t, r with
      | .float64, 0 => .fin 0
      | .float64, 1 => .fin 2
      | .float64, 2 => .fin 0
      | .float64, 3 => .fin 0
      | .float64, 4 => .fin (-2)
      | .float64, 5 => .fin 1
      | t, _ => t.zero)
    (by decide +kernel) (by decide +kernel) (by simp [FMI2.hasType]) (by simp [FMI2.hasType]) (by simp)

example : ∃ w₁ w₂ w₁' w₂' steps,
    FMI2.Simulates Stair.model (FMI2.Prepared Stair.model) w₁ w₂ steps ∧
    FMI3.Simulates Stair.model (FMI3.Prepared Stair.model false false) w₁' w₂' steps ∧
    Agree [(.float64, 0), (.int32, 1)] (Stair.model : Model XRat _) w₁ Stair.model w₁' ∧
    steps = [(.fin 0, .fin (3 / 2)), (.fin (3 / 2), .fin 1)] ∧ w₂.inst.ctx.time = .fin (12 / 5) ∧
    FMI2.Reads Stair.model w₂ .int32 1 3 :=
  C28.instance_of Lens.stair Lens.stair _
    (pre := [.setupExperiment (.fin 0) false (.fin 0), .enterInitializationMode])
    (pre' := [.enterInitializationMode (.fin 0) false (.fin 0)])
    (fun _ _ h => prepared2 h (by simp [FMI2.Op.fn]))
    (fun _ _ h => prepared3 h (by simp [FMI3.Op.fn]))
    (vals := fun t r => match t, r with
      | .float64, 0 => .fin 0
      | .int32, 1 => (1 : Int)
      | t, _ => t.zero)
    (by decide +kernel) (by decide +kernel) (by simp [FMI2.hasType]) (by simp [FMI2.hasType]) (by simp)

/-- A ball that bounces; `FMI2.ReadsBall` holds by the values of `h`, `v`, `g` and `e`. -/
example : ∃ w₁ w₂ w₁' w₂' steps,
    FMI2.Simulates BouncingBall.model (FMI2.Reachable BouncingBall.model .coSimulation) w₁ w₂ steps ∧
    FMI3.Simulates BouncingBall.model (FMI3.ReachableCS BouncingBall.model false false) w₁' w₂' steps ∧
    Agree [(.float64, 0), (.float64, 1), (.float64, 2), (.float64, 3), (.float64, 4), (.float64, 5), (.float64, 6), (.float64, 7)]
      (BouncingBall.model : Model XRat _) w₁ BouncingBall.model w₁' ∧
    steps = [(.fin 0, .fin (1 / 250)), (.fin (1 / 250), .fin (3 / 1000))] ∧ w₂.inst.ctx.time = .fin (7 / 1000) ∧
    FMI2.Reads BouncingBall.model w₂ .float64 3 (.fin (Ball.next^[7] ⟨1 / 100, -2, -981 / 100, 7 / 10⟩).v) :=
  C28.instance_of Lens.bouncingBall Lens.bouncingBall _
    (pre := [.setupExperiment (.fin 0) false (.fin 0), .setReal (some [1, 3]) 2 (some [.fin (1 / 100), .fin (-2)]),
      .enterInitializationMode])
    (pre' := [.set .float64 (some [1, 3]) 2 (some [.fin (1 / 100), .fin (-2)]) 2, .enterInitializationMode (.fin 0) false (.fin 0)])
    (fun _ _ h => reach_run2 h)
    (fun _ _ h => (prepared3 h (by simp [FMI3.Op.fn])).reachable)
    (vals := fun t r => match t, r with
      | .float64, 0 => .fin 0
      | .float64, 1 => .fin (1 / 100)
      | .float64, 2 => .fin (-2)
      | .float64, 3 => .fin (-2)
      | .float64, 4 => .fin (-981 / 100)
      | .float64, 5 => .fin (-981 / 100)
      | .float64, 6 => .fin (7 / 10)
      | .float64, 7 => .fin (1 / 10)
      | t, _ => t.zero)
    (by decide +kernel) (by decide +kernel) (by simp [FMI2.hasType]) (by simp [FMI2.hasType]) (by simp)

end examples

end Verif
