import Verif.Spec.Crossing
import Verif.Props.C46

/-!
# C29: zero crossings are detected exactly when an indicator changes its domain
-/

set_option linter.unusedSectionVars false

namespace Verif
variable {F D : Type} [Arith F] [HasInf F] {m : Model F D}

theorem zeroCrossing_iff : ∀ (n : Nat) (ps qs : List F),
    zeroCrossing n ps qs = true ↔ ∃ i < n, ∃ p q, ps[i]? = some p ∧ qs[i]? = some q ∧ Crosses p q := by
  intro n
  induction n with
  | zero => intro ps qs; simp [zeroCrossing]
  | succ n ih =>
    intro ps qs
    cases ps with
    | nil => simp [zeroCrossing]
    | cons p ps =>
      cases qs with
      | nil => simp [zeroCrossing]
      | cons q qs =>
        rw [zeroCrossing, Bool.or_eq_true, ih]
        constructor
        · rintro (h | ⟨i, hi, h⟩)
          · exact ⟨0, by omega, p, q, rfl, rfl, by simpa [Crosses] using h⟩
          · exact ⟨i + 1, by omega, by simpa using h⟩
        · rintro ⟨i, hi, p', q', h1, h2, h3⟩
          cases i with
          | zero =>
            cases h1; cases h2
            exact .inl (by simpa [Crosses] using h3)
          | succ i => exact .inr ⟨i, by omega, p', q', by simpa using h1, by simpa using h2, h3⟩

/-- A solver step of an instance ready for it. -/
theorem Ode.crosses (o : Ode m) {c c' : Comp F D} (hr : o.Ready c) {se te}
    (e : doFixedStep m c = .ret (c', .OK, some (se, te))) :
    (se = true ↔ ∃ i < o.nz, ∃ p q, c.prez[i]? = some p ∧ c'.prez[i]? = some q ∧ Crosses p q) ∧
      (0 < o.nz → ∃ c'', c'.lift (m.getEventIndicators c'.ctx c'.mv (some c'.z) c'.nz) = .ret (c'', .OK, some c'.prez)) := by
  obtain ⟨c2, e2, hr2, -, hp, hd, -⟩ := o.fixedStep_eq hr
  rw [e] at e2
  simp only [Outcome.ret.injEq, Prod.mk.injEq, Option.some.injEq, true_and] at e2
  obtain ⟨rfl, rfl, rfl⟩ := e2
  constructor
  · unfold Ode.crossing
    split
    · next h => simp [h]
    · next h =>
      rw [zeroCrossing_iff, hp (by omega), ← o.inds_calc c'.mv.data, hd, o.inds_calc]
  · intro hz
    rw [o.getInds_eq hz hr2 (by rw [hr2.lens.z, o.maxNZ]), hp hz]
    exact ⟨_, rfl⟩

/-- **C29**, every FMU with event indicators, every arithmetic: a solver step of an instance that can make one (FMI 3.0, Step Mode)
reports a state event if and only if one of the indicators has crossed zero since it was evaluated last; afterwards
the values of the indicators at that moment, as given by the model, are the ones the next step compares with. -/
theorem FMI3.C29_solver {t : IType} {w : World F D} (hm : RefFMU3 m) (o : Ode m) (hw : ReachableProper m t w)
    (hs : w.inst.ctx.state = .stepMode) {c' : Comp F D} {se te}
    (e : doFixedStep m w.inst = .ret (c', .OK, some (se, te))) :
    (se = true ↔ ∃ i < m.maxNZ, ∃ p q, w.inst.prez[i]? = some p ∧ c'.prez[i]? = some q ∧ Crosses p q) ∧
      (0 < m.maxNZ → ∃ c'', c'.lift (m.getEventIndicators c'.ctx c'.mv (some c'.z) c'.nz) = .ret (c'', .OK, some c'.prez)) := by
  obtain ⟨h1, h2⟩ := hw.ready o hm
  rw [o.maxNZ]
  exact o.crosses ((Ode.conf_not_early h2 hs).ready h1) e

/-- **C29**, the same for FMI 2.0 (BouncingBall). -/
theorem FMI2.C29_solver {t : IType} {w : World F D} (hm : RefFMU2 m) (o : Ode m) (hw : Reachable m t w)
    (hs : w.inst.ctx.state = .stepComplete) {c' : Comp F D} {se te}
    (e : doFixedStep m w.inst = .ret (c', .OK, some (se, te))) :
    (se = true ↔ ∃ i < m.maxNZ, ∃ p q, w.inst.prez[i]? = some p ∧ c'.prez[i]? = some q ∧ Crosses p q) ∧
      (0 < m.maxNZ → ∃ c'', c'.lift (m.getEventIndicators c'.ctx c'.mv (some c'.z) c'.nz) = .ret (c'', .OK, some c'.prez)) := by
  obtain ⟨h1, h2⟩ := hw.ready o hm
  rw [o.maxNZ]
  exact o.crosses ((Ode.conf_not_early h2 hs).ready h1) e

/-- A ball close above the ground falls below it. -/
example : ∃ (w : FMI2.World XRat (BouncingBall.Data XRat)) (c' : Comp XRat (BouncingBall.Data XRat)) (te : Bool),
    FMI2.Reachable BouncingBall.model .coSimulation w ∧ w.inst.ctx.state = .stepComplete ∧
    doFixedStep BouncingBall.model w.inst = .ret (c', .OK, some (true, te)) := by
  obtain ⟨⟨w, outs⟩, e, h⟩ := Outcome.exists_of_is (r := Ex.run2 BouncingBall.model .coSimulation
    [.setReal (some [1, 3]) 2 (some [.fin (1 / 2000), .fin (-1)]), .setupExperiment (.fin 0) false (.fin 0),
      .enterInitializationMode, .exitInitializationMode])
    (p := fun x => decide (x.1.inst.ctx.state = .stepComplete) &&
      (doFixedStep BouncingBall.model x.1.inst).is fun a => decide (a.2.1 = .OK) && decide (a.2.2.map (·.1) = some true))
    (by decide +kernel)
  simp only [Bool.and_eq_true, decide_eq_true_eq] at h
  obtain ⟨hs, h⟩ := h
  obtain ⟨⟨c', s, o⟩, e2, h⟩ := Outcome.exists_of_is h
  simp only [Bool.and_eq_true, decide_eq_true_eq] at h
  obtain ⟨rfl, ho⟩ := h
  cases o with
  | none => cases ho
  | some o =>
    obtain ⟨a, b⟩ := o
    cases ho
    exact ⟨w, c', b, Ex.reach_run2 e, hs, e2⟩

namespace BouncingBall

/-- The ball is above the ground. -/
def above (x : XRat) : Bool := Arith.lit 0 <. x

theorem above_indicator (d : Data XRat) : above (indicator d) = above d.h ∧ (indicator d = .nan ↔ d.h = .nan) := by
  unfold indicator
  split
  · next h =>
    simp only [Bool.and_eq_true] at h
    cases hh : d.h with
    | fin q =>
      rw [hh] at h
      have : q ≤ 0 := by simpa using h.1.2
      have h2 : ¬ (10000000000 : Rat) < 0 := by norm_num
      simp [above, eventEpsilon, not_lt.2 this, h2]
    | pinf => rw [hh] at h; exact absurd h.1.2 (by decide)
    | ninf => rw [hh] at h; exact absurd h.1.1 (by decide +kernel)
    | nan => rw [hh] at h; exact absurd h.1.2 (by decide)
  · exact ⟨rfl, Iff.rfl⟩

theorem crosses_iff {p q : XRat} (hp : p ≠ .nan) (hq : q ≠ .nan) : Crosses p q ↔ above p ≠ above q := by
  have key : ∀ x : XRat, x ≠ .nan → (x <=. Arith.lit 0) = !above x := by
    intro x hx
    cases x with
    | fin a => simp only [above, XRat.lit_eq, XRat.le_fin, XRat.lt_fin]; rcases le_or_gt a 0 with h | h <;> simp [h, not_lt.2, not_le.2]
    | pinf => rfl
    | ninf => rfl
    | nan => exact absurd rfl hx
  unfold Crosses
  rw [key p hp, key q hq]
  show (_ ∧ above q = true) ∨ (above p = true ∧ _) ↔ _
  cases above p <;> cases above q <;> simp

theorem not_crosses_nan (p : XRat) : ¬ Crosses p .nan := by
  rintro (⟨-, h⟩ | ⟨-, h⟩)
  · exact absurd h (by decide)
  · exact absurd h (by decide)

theorem euler_nan {d : Data XRat} (h : d.h = .nan) : ((BouncingBall.ode (F := XRat)).euler d).h = .nan := by
  simp only [Ode.euler, BouncingBall.ode, BouncingBall.model, eulerUpdate, h]
  simp
  show XRat.add .nan _ = _
  rfl

/-- An iteration with Event Mode and early return. -/
theorem iter_crosses {c c' : Comp XRat (Data XRat)} {e l} (hr : (BouncingBall.ode (F := XRat)).Ready c)
    (hn : c.mv.nextEventTimeDefined = false) (hemu : c.eventModeUsed = true) (hera : c.earlyReturnAllowed = true)
    {z : XRat} (hz : c.prez = [z]) (h : FMI3.iter BouncingBall.model c false = .ret (c', .OK, (e, l))) :
    (BouncingBall.ode (F := XRat)).Ready c' ∧ c'.mv.nextEventTimeDefined = false ∧ c'.eventModeUsed = true ∧
      c'.earlyReturnAllowed = true ∧ c'.prez = [indicator c'.mv.data] ∧ (c.mv.data.h = .nan → c'.mv.data.h = .nan) ∧
      (e = true ↔ Crosses z (indicator c'.mv.data)) ∧ (l = false → e = false) := by
  have hm := (RefFMU3.bouncingBall (F := XRat)).eff.okOrError
  have hf := FMI3.iter_frame hm h
  rcases FMI3.iter_eq_ret hm h with ⟨-, c0, e0, c1, se, te, ep, e1, h1⟩ | ⟨h, -⟩
  · have hep : c0 = c ∧ e0 = false := by
      unfold FMI3.pendingEvent at ep
      have : (BouncingBall.model (F := XRat)).eventUpdate = some eventUpdate := rfl
      rw [this] at ep
      simp only [Bool.false_eq_true, if_false] at ep
      cases ep
      exact ⟨rfl, rfl⟩
    obtain ⟨rfl, rfl⟩ := hep
    obtain ⟨c2, e2, hr2, hf1, hp, hd, hmv⟩ := (BouncingBall.ode (F := XRat)).fixedStep_eq hr
    rw [e1] at e2
    simp only [Outcome.ret.injEq, Prod.mk.injEq, Option.some.injEq, true_and] at e2
    obtain ⟨rfl, rfl, rfl⟩ := e2
    have hd : c1.mv.data = (BouncingBall.ode (F := XRat)).euler c0.mv.data := hd
    have hp : c1.prez = [indicator c1.mv.data] := hp (by decide)
    have hcr : (BouncingBall.ode (F := XRat)).crossing c0.prez ((BouncingBall.ode (F := XRat)).euler c0.mv.data) = true ↔
        Crosses z (indicator c1.mv.data) := by
      rw [hz, ← hd]
      show zeroCrossing 1 [z] [indicator c1.mv.data] = true ↔ _
      simp [zeroCrossing, Crosses]
    rw [hn, Bool.false_and, Bool.or_false] at h1
    have hn1 : c1.mv.nextEventTimeDefined = false := by rw [hmv]; exact hn
    have hw : c'.eventModeUsed = true ∧ c'.earlyReturnAllowed = true := ⟨hf.emu.trans hemu, hf.era.trans hera⟩
    rcases h1 with ⟨hne, rfl, hb⟩ | ⟨-, ht, -, rfl, hb⟩ | ⟨eu, -, -, h2, -⟩
    · have hne := hne.resolve_left (by exact fun h => by cases h)
      refine ⟨hr2, hn1, hw.1, hw.2, hp, fun h => ?_, ?_, fun _ => (Prod.mk.inj hb).1⟩
      · rw [hd]; exact euler_nan h
      · rw [(Prod.mk.inj hb).1, ← hcr, hne]
    · refine ⟨hr2, hn1, hw.1, hw.2, hp, fun h => ?_, ?_, fun h => ?_⟩
      · rw [hd]; exact euler_nan h
      · rw [(Prod.mk.inj hb).1, ← hcr, ht]
      · rw [(Prod.mk.inj hb).2, hw.2] at h
        cases h
    · rw [hf1.emu] at h2
      exact absurd (hemu.symm.trans h2) (by simp)
  · cases h

theorem Loop.evaluated {next : XRat} {c c' : Comp XRat (Data XRat)} {n e r}
    (h : FMI3.Loop BouncingBall.model next c false n c' .OK e r) (hr : (BouncingBall.ode (F := XRat)).Ready c)
    (hn : c.mv.nextEventTimeDefined = false) (hemu : c.eventModeUsed = true) (hera : c.earlyReturnAllowed = true)
    {z : XRat} (hz : c.prez = [z]) :
    (c.mv.data.h = .nan → c'.mv.data.h = .nan) ∧ (n = 0 ∧ c' = c ∨ c'.prez = [indicator c'.mv.data]) := by
  generalize hb : false = b at h
  generalize hs : Status.OK = s at h
  induction h generalizing z with
  | done => subst hb; exact ⟨id, .inl ⟨rfl, rfl⟩⟩
  | @step c ehn c1 ehn1 n c' s e r hre e1 hl ih =>
    subst hb
    obtain ⟨h1, h2, h3, h4, h5, h6, h7, h8⟩ := iter_crosses hr hn hemu hera hz e1
    cases h8 rfl
    obtain ⟨h9, h10⟩ := ih h1 h2 h3 h4 h5 rfl hs
    refine ⟨fun h => h9 (h6 h), .inr ?_⟩
    rcases h10 with ⟨rfl, rfl⟩ | h10
    · exact h5
    · exact h10
  | leave _ e1 =>
    subst hb
    obtain ⟨h1, h2, h3, h4, h5, h6, h7, h8⟩ := iter_crosses hr hn hemu hera hz e1
    exact ⟨h6, .inr h5⟩
  | error => cases hs

theorem Loop.crosses {next : XRat} {c c' : Comp XRat (Data XRat)} {n e r}
    (h : FMI3.Loop BouncingBall.model next c false n c' .OK e r) (hr : (BouncingBall.ode (F := XRat)).Ready c)
    (hn : c.mv.nextEventTimeDefined = false) (hemu : c.eventModeUsed = true) (hera : c.earlyReturnAllowed = true)
    {z : XRat} (hz : c.prez = [z]) (hz' : z ≠ .nan) :
    (n = 0 ∧ c' = c ∧ e = false ∨
      c'.prez = [indicator c'.mv.data] ∧ (c'.mv.data.h ≠ .nan → (e = true ↔ Crosses z (indicator c'.mv.data)))) := by
  generalize hb : false = b at h
  generalize hs : Status.OK = s at h
  induction h generalizing z with
  | done => subst hb; exact .inl ⟨rfl, rfl, rfl⟩
  | @step c ehn c1 ehn1 n c' s e r hre e1 hl ih =>
    subst hb
    obtain ⟨h1, h2, h3, h4, h5, h6, h7, h8⟩ := iter_crosses hr hn hemu hera hz e1
    cases h8 rfl
    by_cases hq : indicator c1.mv.data = .nan
    · subst hs
      obtain ⟨h9, -⟩ := Loop.evaluated hl h1 h2 h3 h4 h5
      have h9 := h9 ((above_indicator _).2.1 hq)
      refine .inr ⟨?_, fun h => absurd h9 h⟩
      rcases (Loop.evaluated hl h1 h2 h3 h4 h5).2 with ⟨-, rfl⟩ | h
      · exact h5
      · exact h
    · have h10 := ih h1 h2 h3 h4 h5 hq rfl hs
      refine .inr ?_
      rcases h10 with ⟨rfl, rfl, rfl⟩ | ⟨h10, h11⟩
      · exact ⟨h5, fun _ => h7⟩
      · refine ⟨h10, fun h => ?_⟩
        have hi := fun hh => h ((above_indicator _).2.1 hh)
        have h7 : ¬ Crosses z (indicator c1.mv.data) := fun h => by have := h7.2 h; cases this
        rw [crosses_iff hz' hq, not_not] at h7
        rw [h11 h, crosses_iff hz' hi, crosses_iff hq hi, h7]
  | leave _ e1 =>
    subst hb
    obtain ⟨h1, h2, h3, h4, h5, h6, h7, h8⟩ := iter_crosses hr hn hemu hera hz e1
    exact .inr ⟨h5, fun _ => h7⟩
  | error => cases hs

end BouncingBall

namespace FMI3

/-- What `fmi3DoStep` does, seen from the loop. -/
theorem doStep_ball {w w' : World XRat (BouncingBall.Data XRat)} (hw : ReachableCS BouncingBall.model true true w) {fuel ccp h out o}
    (e : step BouncingBall.model fuel w (.doStep ccp h out) = .ret (w', .OK, o)) :
    ∃ next n c' ehn r, Loop BouncingBall.model next w.inst false n c' .OK ehn r ∧ o.needsEvent = ehn ∧
      w'.inst.prez = c'.prez ∧ w'.inst.mv = c'.mv ∧ w'.inst.ctx = c'.ctx ∧ (BouncingBall.ode (F := XRat)).Ready w.inst ∧
      w.inst.mv.nextEventTimeDefined = false ∧ w.inst.eventModeUsed = true ∧ w.inst.earlyReturnAllowed = true := by
  have hm := RefFMU3.bouncingBall (F := XRat)
  have hk := hm.eff.okOrError
  obtain ⟨hst, n, c', ehn, r, -, hl, rfl, rfl⟩ := doStep_loop hk e
  simp only [Spec.allowedIn, List.mem_cons, List.not_mem_nil, or_false] at hst
  obtain ⟨hl', hi⟩ := hw.proper.ready (BouncingBall.ode (F := XRat)) hm
  obtain ⟨h1, h2⟩ := hw.switches hk
  refine ⟨_, n, c', ehn, r, hl, by cases ehn <;> rfl, rfl, rfl, rfl, (Ode.conf_not_early hi hst).ready hl', ?_, h1, h2⟩
  exact (Reachable.mv hk BouncingBall.netd_inv rfl (hw.proper.reachable hk)).inst

/-- The indicators that were saved. -/
theorem Evaluated.prez {p : XRat} {w : World XRat (BouncingBall.Data XRat)} (h : Evaluated BouncingBall.model 1 p w) :
    ReachableCS BouncingBall.model true true w ∧ ∃ z, w.inst.prez = [z] ∧ BouncingBall.above z = BouncingBall.above p ∧ (z = .nan ↔ p = .nan) := by
  have hm := RefFMU3.bouncingBall (F := XRat)
  have hk := hm.eff.okOrError
  have hread : ∀ {w : World XRat (BouncingBall.Data XRat)} {x}, Reads BouncingBall.model w .float64 1 x → x = w.inst.mv.data.h :=
    fun h => h.unique (reads_lens Lens.bouncingBall (by simp) h.allowed)
  have htime : ∀ {w : World XRat (BouncingBall.Data XRat)} {x}, Reads BouncingBall.model w .float64 0 x → x = w.inst.ctx.time :=
    fun h => h.unique (reads_lens Lens.bouncingBall (by simp) h.allowed)
  induction h with
  | exit hw e hr =>
    refine ⟨hw.call e (by simp [Op.fn]), _, exit_prez (BouncingBall.ode (F := XRat)) hk (hw.proper.ready (BouncingBall.ode (F := XRat)) hm).1 (by decide) e, ?_⟩
    rw [hread hr]
    exact BouncingBall.above_indicator _
  | step hw e ht ht' hne hr =>
    refine ⟨hw.call e (by simp [Op.fn]), ?_⟩
    obtain ⟨next, n, c', ehn, r, hl, -, h1, h2, h3, hrd, hn, hemu, hera⟩ := doStep_ball hw e
    rw [h1, hread hr, h2]
    obtain ⟨z, hz⟩ : ∃ z, _ = [z] := List.length_eq_one_iff.1 (hrd.lens.prez)
    rcases (BouncingBall.Loop.evaluated hl hrd hn hemu hera hz).2 with ⟨-, rfl⟩ | h
    · rw [htime ht, htime ht', h3] at hne
      exact absurd rfl hne
    · exact ⟨_, h, BouncingBall.above_indicator _⟩
  | other _ h1 h2 e ih =>
    obtain ⟨hw, z, hz, h⟩ := ih
    refine ⟨hw.call e h2, z, ?_, h⟩
    exact step_keepX hk (prez_callInv BouncingBall.model [z]) (fun _ _ _ _ => trivial) hz (fun _ _ _ _ h => h) h1 _ e

/-- **C29**, as the importer sees it (BouncingBall, exact arithmetic): with Event Mode and early return `fmi3DoStep` reports an event
if and only if the ball has moved between above the ground and not above the ground since the event indicator was evaluated last. -/
theorem C29_reported_partial {w w' : World XRat (BouncingBall.Data XRat)} {p q t t' : Rat} {fuel ccp h out o}
    (hw : Evaluated BouncingBall.model 1 (.fin p) w)
    (e : step BouncingBall.model fuel w (.doStep ccp h out) = .ret (w', .OK, o))
    (ht : Reads BouncingBall.model w .float64 0 (.fin t)) (ht' : Reads BouncingBall.model w' .float64 0 (.fin t')) (hne : t ≠ t')
    (hq : Reads BouncingBall.model w' .float64 1 (.fin q)) :
    o.needsEvent = true ↔ Ball.Crosses p q := by
  obtain ⟨hw, z, hz, h1, h2⟩ := hw.prez
  obtain ⟨next, n, c', ehn, r, hl, rfl, -, h4, h5, hrd, hn, hemu, hera⟩ := doStep_ball hw e
  have hq : XRat.fin q = c'.mv.data.h := by
    rw [← h4]; exact hq.unique (reads_lens Lens.bouncingBall (by simp) hq.allowed)
  have ht : XRat.fin t = w.inst.ctx.time := ht.unique (reads_lens Lens.bouncingBall (by simp) ht.allowed)
  have ht' : XRat.fin t' = w'.inst.ctx.time := ht'.unique (reads_lens Lens.bouncingBall (by simp) ht'.allowed)
  have hz' : z ≠ .nan := fun h => by cases h2.1 h
  rcases BouncingBall.Loop.crosses hl hrd hn hemu hera hz hz' with ⟨-, rfl, -⟩ | ⟨-, h⟩
  · rw [← h5, ← ht', XRat.fin.injEq] at ht
    exact absurd ht hne
  · obtain ⟨h6, h7⟩ := BouncingBall.above_indicator c'.mv.data
    rw [h (by rw [← hq]; exact fun h => by cases h),
      BouncingBall.crosses_iff hz' (fun h => by have := h7.1 h; rw [← hq] at this; cases this), h1, h6, ← hq]
    unfold Ball.Crosses BouncingBall.above
    simp only [XRat.lit_eq, XRat.lt_fin]
    rcases le_or_gt p 0 with h8 | h8 <;> rcases le_or_gt q 0 with h9 | h9 <;> simp [h8, h9, not_lt.2, not_le.2]

/-! Non-vacuity and a violation -/

theorem reads_of_has {D : Type} {m : Model XRat D} {R : List (VType × Nat)} {l : Lens m R} {w : World XRat D} {t : VType} {r : Nat}
    {v : t.Val XRat} (h : Ex.has l w.inst t r v = true) (hr : (t, r) ∈ R) (hs : w.inst.ctx.state ∈ Spec.allowedIn (.get t)) :
    Reads m w t r v := by
  rw [← of_decide_eq_true h]
  exact reads_lens l hr hs

/-- The last five calls of an example: update the discrete states, go on to Step Mode, and make two steps. -/
private theorem example_of {pre : List (FMI3.Op XRat)} {t₁ t₂ p q : Rat} {ev : Bool}
    (h : ((Ex.runCS3 BouncingBall.model true true pre).is fun x =>
      (step BouncingBall.model 1000 x.1 .exitInitializationMode).is fun y =>
      (step BouncingBall.model 1000 y.1 C46.upd).is fun a => (step BouncingBall.model 1000 a.1 .enterStepMode).is fun b =>
      (step BouncingBall.model 1000 b.1 (.doStep (.fin 0) (.fin t₁) Ex.stepOut)).is fun c =>
      (step BouncingBall.model 1000 c.1 (.doStep (.fin t₁) (.fin t₂) Ex.stepOut)).is fun d =>
      decide (y.2.1 = .OK) && decide (c.2.1 = .OK) && decide (d.2.1 = .OK) && decide (d.2.2.needsEvent = ev) &&
      Ex.has Lens.bouncingBall b.1.inst .float64 0 (.fin 0) && Ex.has Lens.bouncingBall c.1.inst .float64 0 (.fin t₁) &&
      Ex.has Lens.bouncingBall c.1.inst .float64 1 (.fin p) && Ex.has Lens.bouncingBall d.1.inst .float64 0 (.fin (t₁ + t₂)) &&
      Ex.has Lens.bouncingBall d.1.inst .float64 1 (.fin q) &&
      decide (a.1.inst.ctx.state = .eventMode) && decide (b.1.inst.ctx.state = .stepMode) && decide (c.1.inst.ctx.state = .stepMode) && decide (d.1.inst.ctx.state = .stepMode)) = true)
    (hpre : ∀ op ∈ pre, op.fn ∉ [FMI3.Fn.doStep, .updateDiscreteStates, .setFMUState, .enterStepMode]) (h1 : (0 : Rat) ≠ t₁)
    (h2 : t₁ ≠ t₁ + t₂) :
    ∃ w w' o, Evaluated BouncingBall.model 1 (.fin p) w ∧
      step BouncingBall.model 1000 w (.doStep (.fin t₁) (.fin t₂) Ex.stepOut) = .ret (w', .OK, o) ∧
      Reads BouncingBall.model w .float64 0 (.fin t₁) ∧ Reads BouncingBall.model w' .float64 0 (.fin (t₁ + t₂)) ∧ t₁ ≠ t₁ + t₂ ∧
      Reads BouncingBall.model w' .float64 1 (.fin q) ∧ o.needsEvent = ev := by
  obtain ⟨⟨x, _⟩, e0, h⟩ := Outcome.exists_of_is h
  obtain ⟨⟨y, _, _⟩, e1, h⟩ := Outcome.exists_of_is h
  obtain ⟨⟨a, _, _⟩, e2, h⟩ := Outcome.exists_of_is h
  obtain ⟨⟨b, _, _⟩, e3, h⟩ := Outcome.exists_of_is h
  obtain ⟨⟨c, _, _⟩, e4, h⟩ := Outcome.exists_of_is h
  obtain ⟨⟨d, _, o⟩, e5, h⟩ := Outcome.exists_of_is h
  simp only [Bool.and_eq_true, decide_eq_true_eq] at h
  obtain ⟨⟨⟨⟨⟨⟨⟨⟨⟨⟨⟨⟨rfl, rfl⟩, rfl⟩, hev⟩, hb0⟩, hc0⟩, hc1⟩, hd0⟩, hd1⟩, hsa⟩, hsb⟩, hsc⟩, hsd⟩ := h
  have hr : ∀ {w : World XRat (BouncingBall.Data XRat)}, w.inst.ctx.state = .stepMode → w.inst.ctx.state ∈ Spec.allowedIn (.get .float64) :=
    fun h => by simp [h, Spec.allowedIn]
  have hb := ((((Ex.prepared3 e0 hpre).reachable.call e1 (by simp [Op.fn])).call e2 (by simp [Op.fn, C46.upd])).call e3
    (by simp [hsa]))
  exact ⟨c, d, o, .step hb e4 (reads_of_has hb0 (by simp) (hr hsb)) (reads_of_has hc0 (by simp) (hr hsc)) (fun h => h1 (by simpa using h))
    (reads_of_has hc1 (by simp) (hr hsc)), e5, reads_of_has hc0 (by simp) (hr hsc), reads_of_has hd0 (by simp) (hr hsd), h2,
    reads_of_has hd1 (by simp) (hr hsd), hev⟩

private theorem example_solver {D : Type} {m : Model XRat D} {pre : List (FMI3.Op XRat)} {ev : Bool}
    (h : ((Ex.runCS3 m false false pre).is fun x => (step m 1000 x.1 .exitInitializationMode).is fun y =>
      (doFixedStep m y.1.inst).is fun a => decide (y.2.1 = .OK) && decide (y.1.inst.ctx.state = .stepMode) && decide (a.2.1 = .OK) &&
        decide (a.2.2.map (·.1) = some ev)) = true)
    (hpre : ∀ op ∈ pre, op.fn ∉ [FMI3.Fn.doStep, .updateDiscreteStates, .setFMUState, .enterStepMode]) :
    ∃ (w : World XRat D) (c' : Comp XRat D) (te : Bool), ReachableProper m .coSimulation w ∧ w.inst.ctx.state = .stepMode ∧
      doFixedStep m w.inst = .ret (c', .OK, some (ev, te)) := by
  obtain ⟨⟨x, _⟩, e0, h⟩ := Outcome.exists_of_is h
  obtain ⟨⟨y, _, _⟩, e1, h⟩ := Outcome.exists_of_is h
  obtain ⟨⟨c', _, o⟩, e2, h⟩ := Outcome.exists_of_is h
  simp only [Bool.and_eq_true, decide_eq_true_eq] at h
  obtain ⟨⟨⟨rfl, hs⟩, rfl⟩, ho⟩ := h
  cases o with
  | none => cases ho
  | some o =>
    cases ho
    exact ⟨y, c', o.2, ((Ex.prepared3 e0 hpre).reachable.call e1 (by simp [Op.fn])).proper, hs, e2⟩

/-- A ball close above the ground falls below it. -/
example := example_solver (m := BouncingBall.model) (ev := true) (pre := [.set .float64 (some [1, 3]) 2 (some [.fin (1 / 2000), .fin (-1)]) 2,
    .enterInitializationMode (.fin 0) false (.fin 0)]) (by decide +kernel) (by simp [Op.fn])

/-- The first step of Roberts crosses no threshold. -/
example := example_solver (m := Roberts.model) (ev := false) (pre := [.enterInitializationMode (.fin 0) false (.fin 0)])
  (by decide +kernel) (by simp [Op.fn])

/-- A ball that falls below the ground in the second step. -/
example := example_of (pre := [.set .float64 (some [1, 3]) 2 (some [.fin (1 / 400), .fin (-1)]) 2,
    .enterInitializationMode (.fin 0) false (.fin 0)]) (t₁ := 2 / 1000) (t₂ := 1 / 1000) (p := 1 / 2000 - 981 / 100 / 1000000)
  (q := -1 / 2000 - 3 * (981 / 100 / 1000000)) (ev := true) (by decide +kernel) (by simp [Op.fn]) (by decide +kernel) (by decide +kernel)

/-- A ball that stays above the ground. -/
example := example_of (pre := [.enterInitializationMode (.fin 0) false (.fin 0)]) (t₁ := 2 / 1000) (t₂ := 2 / 1000)
  (p := 1 - 981 / 100 / 1000000) (q := 1 - 6 * (981 / 100 / 1000000)) (ev := false) (by decide +kernel) (by simp [Op.fn])
  (by decide +kernel) (by decide +kernel)

/-- C29 fails if the importer leaves the Initialization Mode with `fmi3EnterStepMode`, which the FMUs accept: the solver then believes
that there are no event indicators. `fmi3DoStep` has put the ball above the ground, the importer puts it below, and the next `fmi3DoStep`
advances the time but reports no event. -/
theorem C29_violated : ∃ w w' : World XRat (BouncingBall.Data XRat), ∃ ops outs p q, Reachable BouncingBall.model .coSimulation w ∧
    Reads BouncingBall.model w .float64 0 (.fin (1 / 1000)) ∧ Reads BouncingBall.model w .float64 1 (.fin p) ∧
    ops = [.enterEventMode, .set .float64 (some [1]) 1 (some [.fin q]) 1, .enterStepMode,
      .doStep (.fin (1 / 1000)) (.fin (1 / 1000)) Ex.stepOut] ∧
    run BouncingBall.model 1000 w ops = .ret (w', outs) ∧ (∀ x ∈ outs, x.1 = .OK ∧ x.2.needsEvent = false) ∧
    Reads BouncingBall.model w' .float64 0 (.fin (2 / 1000)) ∧ Reads BouncingBall.model w' .float64 1 (.fin q) ∧ Ball.Crosses p q := by
  obtain ⟨⟨w, outs⟩, e, h⟩ := Outcome.exists_of_is (r := Ex.runCS3 BouncingBall.model true true
    [.enterInitializationMode (.fin 0) false (.fin 0), .enterStepMode, .doStep (.fin 0) (.fin (1 / 1000)) Ex.stepOut])
    (p := fun x => Ex.has Lens.bouncingBall x.1.inst .float64 1 (.fin 1) && Ex.has Lens.bouncingBall x.1.inst .float64 0 (.fin (1 / 1000)) &&
      decide (x.1.inst.ctx.state = .stepMode) &&
      (run BouncingBall.model 1000 x.1 [.enterEventMode, .set .float64 (some [1]) 1 (some [.fin (-1)]) 1, .enterStepMode,
        .doStep (.fin (1 / 1000)) (.fin (1 / 1000)) Ex.stepOut]).is fun y =>
        y.2.all (fun x => decide (x.1 = .OK) && decide (x.2.needsEvent = false)) && Ex.has Lens.bouncingBall y.1.inst .float64 1 (.fin (-1)) &&
        Ex.has Lens.bouncingBall y.1.inst .float64 0 (.fin (2 / 1000)) &&
        decide (y.1.inst.ctx.state = .stepMode)) (by decide +kernel)
  simp only [Bool.and_eq_true, decide_eq_true_eq] at h
  obtain ⟨⟨⟨h1, h0⟩, h2⟩, h⟩ := h
  obtain ⟨⟨w', outs'⟩, e', h⟩ := Outcome.exists_of_is h
  simp only [Bool.and_eq_true, decide_eq_true_eq, List.all_eq_true] at h
  obtain ⟨⟨⟨h3, h4⟩, h6⟩, h5⟩ := h
  exact ⟨w, w', _, outs', 1, -1, Ex.reach_runCS3 e, reads_of_has h0 (by simp) (by simp [h2, Spec.allowedIn]),
    reads_of_has h1 (by simp) (by simp [h2, Spec.allowedIn]), rfl, e', h3, reads_of_has h6 (by simp) (by simp [h5, Spec.allowedIn]),
    reads_of_has h4 (by simp) (by simp [h5, Spec.allowedIn]), .inr ⟨by decide +kernel, by decide +kernel⟩⟩

end FMI3

end Verif
