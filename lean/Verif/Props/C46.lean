import Verif.Props.C28
import Verif.Lemmas.Close

/-!
# C46: handling events in Event Mode gives the same trajectory as internal event handling
-/

set_option linter.unusedSectionVars false

namespace Verif
namespace FMI3
variable {D : Type} {m : Model XRat D} {R vars : List (VType × Nat)} {w w' : World XRat D}

theorem SameValues.val (l : Lens m R) (h : SameValues vars m w w') (hr : Readable w.inst) (hr' : Readable w'.inst) {t : VType} {r : Nat}
    (hv : (t, r) ∈ vars) (hR : (t, r) ∈ R) :
    l.val t r w.inst.ctx.time w.inst.mv.data = l.val t r w'.inst.ctx.time w'.inst.mv.data := by
  obtain ⟨x, h1, h2⟩ := h t r hv
  rw [← h1.unique (reads_lens l hR (hr.all t)), ← h2.unique (reads_lens l hR (hr'.all t))]

theorem SameValues.of_val (l : Lens m R) (hr : Readable w.inst) (hr' : Readable w'.inst)
    (h : ∀ t r, (t, r) ∈ vars → (t, r) ∈ R ∧
      l.val t r w.inst.ctx.time w.inst.mv.data = l.val t r w'.inst.ctx.time w'.inst.mv.data) : SameValues vars m w w' := by
  intro t r hv
  obtain ⟨h1, h2⟩ := h t r hv
  exact ⟨_, reads_lens l h1 (hr.all t), by rw [h2]; exact reads_lens l h1 (hr'.all t)⟩

/-- A simulation of a machine whose events are handled. -/
theorem Handles.follows {o : Ode m} {S : Type} {tick : S → S} {R P : S → Comp XRat D → Prop} (k : Follows o tick R P)
    (hm : RefFMU3 m) (hrd : m.ReadsUpTo o.calc') {h : Rat} (hh : m.h = .fin h) {start : World XRat D → Prop} {emu era : Bool}
    (hst : ∀ w, start w → ReachableCS m emu era w) {p : Bool} {w₁ w₂ : World XRat D} (hs : Handles m start p w₁ w₂) {s : S}
    (hp : Pending m R P p s w₁.inst) {t₀ : Rat} (ht : w₁.inst.ctx.time = .fin t₀) :
    Readable w₂.inst ∧ ∃ n : Nat, R (tick^[n] s) w₂.inst ∧ w₂.inst.ctx.time = .fin (t₀ + n * h) := by
  obtain ⟨w, f₁, x, fuel, ops, outs, hw, e₁, hops, e₂, ho, hha, hn⟩ := hs
  have hk := hm.eff.okOrError
  have hr := (hst _ hw).proper
  obtain ⟨hz, hts, hsd⟩ := exit_start hk (hr.reachable hk) e₁
  obtain ⟨hr, n, hl, hd, ha⟩ := run_follows k hm hrd ops (ReachableProper.call hr e₁ (by intro h; cases h)) hsd hops hp e₂ ho hha
  refine ⟨(hr.reachable hk).readable hk, n, hd, ?_⟩
  rw [hh] at ha
  exact Advanced.exact ha hz hts (by omega) ht

theorem Handles.first {start : World XRat D → Prop} {emu era : Bool} (hst : ∀ w, start w → ReachableCS m emu era w) {p : Bool}
    {w₁ w₂ : World XRat D} (h : Handles m start p w₁ w₂) : ReachableCS m emu era w₁ := by
  obtain ⟨w, f₁, x, fuel, ops, outs, hw, e₁, -⟩ := h
  exact (hst _ hw).call e₁ (by intro h; cases h)

/-- Equal times, equal numbers of steps. -/
theorem steps_eq {t₀ h : Rat} (hh : 0 < h) {n n' : Nat} (e : XRat.fin (t₀ + n * h) = .fin (t₀ + n' * h)) : n = n' := by
  injection e with e
  have : (n : Rat) * h = n' * h := by linarith
  exact_mod_cast mul_right_cancel₀ (ne_of_gt hh) this

end FMI3

open FMI3 (Handles ReachableCS Prepared SameValues)

/-- **C46** for the BouncingBall FMU, in exact arithmetic: let two FMI 3.0 instances, each with or without Event Mode and
early return, show the same time and the same ball after their initialisation, and let both be simulated by importers that
handle every event that `fmi3DoStep` reports, each with its own communication step sizes. If they then show the same time, they
show the same values of all variables. (An importer in Event Mode updates the discrete states once more after the
initialisation. If only one of the importers does, the ball is to start above the ground.) -/
theorem C46_bouncingBall_partial {vars : List (VType × Nat)}
    (hv : vars = [(.float64, 0), (.float64, 1), (.float64, 2), (.float64, 3), (.float64, 4), (.float64, 5), (.float64, 6), (.float64, 7)])
    {emu emu' era era' p p' : Bool} {w₁ w₂ w₁' w₂' : FMI3.World XRat (BouncingBall.Data XRat)}
    (h : Handles BouncingBall.model (ReachableCS BouncingBall.model emu era) p w₁ w₂)
    (h' : Handles BouncingBall.model (ReachableCS BouncingBall.model emu' era') p' w₁' w₂')
    (ha : SameValues vars BouncingBall.model w₁ w₁') {t₀ : Rat} {b : Ball} (ht : FMI3.Reads BouncingBall.model w₁ .float64 0 (.fin t₀))
    (hb : FMI3.ReadsBall w₁ b) (hp : p = p' ∨ 0 < b.h) (hend : SameValues [(.float64, 0)] BouncingBall.model w₂ w₂') :
    SameValues vars BouncingBall.model w₂ w₂' := by
  have hm : RefFMU3 (BouncingBall.model : Model XRat _) := .bouncingBall
  have hk := hm.eff.okOrError
  have hre := ((h.first fun _ h => h).proper.reachable hk).readable hk
  have hre' := ((h'.first fun _ h => h).proper.reachable hk).readable hk
  have q := fun {t r} => ha.val Lens.bouncingBall hre hre' (t := t) (r := r)
  have e0 := q (t := .float64) (r := 0) (by simp [hv]) (by simp)
  have e1 := q (t := .float64) (r := 1) (by simp [hv]) (by simp)
  have e3 := q (t := .float64) (r := 3) (by simp [hv]) (by simp)
  have e5 := q (t := .float64) (r := 5) (by simp [hv]) (by simp)
  have e6 := q (t := .float64) (r := 6) (by simp [hv]) (by simp)
  have et := ht.unique (FMI3.reads_lens Lens.bouncingBall (by simp) hre)
  simp only [Lens.bouncingBall] at e0 e1 e3 e5 e6 et
  have hd : w₁'.inst.mv.data = .of b := by
    rw [← hb.data]
    generalize w₁.inst.mv.data = x at *
    generalize w₁'.inst.mv.data = y at *
    cases x; cases y
    simp only at e1 e3 e5 e6
    simp only [e1, e3, e5, e6]
  have o1 : BouncingBall.On b w₁.inst := by
    obtain ⟨w, f₁, x, fuel, ops, outs, hw, e₁, -⟩ := h
    exact FMI3.exit_on hw.proper e₁ hb
  have o2 : BouncingBall.On b w₁'.inst := by
    obtain ⟨w, f₁, x, fuel, ops, outs, hw, e₁, -⟩ := h'
    exact FMI3.exit_on hw.proper e₁ (.of_data hd hre')
  have hpe : (if p then b.bounce else b) = if p' then b.bounce else b := by
    rcases hp with rfl | hp
    · rfl
    · rw [BouncingBall.bounce_above hp, ite_self, ite_self]
  have key : ∀ (p : Bool) (c : Comp XRat (BouncingBall.Data XRat)), BouncingBall.On b c →
      FMI3.Pending BouncingBall.model BouncingBall.On (fun s c => ∃ b, BouncingBall.On b c ∧ b.bounce = s) p
        (if p then b.bounce else b) c := by
    intro p c h
    cases p
    · exact h
    · exact ⟨rfl, b, h, rfl⟩
  obtain ⟨r2, n, hn, ht2⟩ := h.follows BouncingBall.follows hm BouncingBall.reads (h := 1 / 1000) rfl (fun _ h => h) (key _ _ o1) et.symm
  obtain ⟨r2', n', hn', ht2'⟩ := h'.follows BouncingBall.follows hm BouncingBall.reads (h := 1 / 1000) rfl (fun _ h => h) (key _ _ o2)
    (e0.symm.trans et.symm)
  have he := hend.val Lens.bouncingBall r2 r2' (t := .float64) (r := 0) (by simp) (by simp)
  simp only [Lens.bouncingBall] at he
  have hnn : n = n' := FMI3.steps_eq (h := 1 / 1000) (by norm_num) (ht2.symm.trans (he.trans ht2'))
  subst hnn
  rw [hpe] at hn
  refine .of_val Lens.bouncingBall r2 r2' fun t r hv' => ⟨hv ▸ hv', ?_⟩
  rw [he, hn.data, hn'.data]

/-- **C46** for the Stair FMU, in exact arithmetic: as for the BouncingBall FMU, for instances that have not been simulated
before. (If only one of the importers updates the discrete states after the initialisation, the counter is to start below 10,
and the start time must not be that of the first event.) -/
theorem C46_stair_partial {emu emu' era era' p p' : Bool} {w₁ w₂ w₁' w₂' : FMI3.World XRat Stair.Data}
    (h : Handles Stair.model (Prepared Stair.model emu era) p w₁ w₂)
    (h' : Handles Stair.model (Prepared Stair.model emu' era') p' w₁' w₂')
    (ha : SameValues [(.float64, 0), (.int32, 1)] Stair.model w₁ w₁') {t₀ : Rat} {k : Int}
    (ht : FMI3.Reads Stair.model w₁ .float64 0 (.fin t₀)) (hc : FMI3.Reads Stair.model w₁ .int32 1 k)
    (hp : p = p' ∨ (k < 10 ∧ ¬ Close t₀ 1)) (hend : SameValues [(.float64, 0)] Stair.model w₂ w₂') :
    SameValues [(.float64, 0), (.int32, 1)] Stair.model w₂ w₂' := by
  have hm : RefFMU3 (Stair.model : Model XRat _) := .stair
  have hk := hm.eff.okOrError
  have hre := ((h.first fun _ h => h.reachable).proper.reachable hk).readable hk
  have hre' := ((h'.first fun _ h => h.reachable).proper.reachable hk).readable hk
  have q := fun {t r} => ha.val Lens.stair hre hre' (t := t) (r := r)
  have e0 := q (t := .float64) (r := 0) (by simp) (by simp)
  have e1 := q (t := .int32) (r := 1) (by simp) (by simp)
  have et := ht.unique (FMI3.reads_lens Lens.stair (by simp) hre)
  have ec := hc.unique (FMI3.reads_lens Lens.stair (by simp) hre)
  simp only [Lens.stair] at e0 e1 et ec
  have p1 : ∀ {emu era : Bool} {p w₁ w₂}, Handles Stair.model (Prepared Stair.model emu era) p w₁ w₂ →
      ∃ d : Stair.Data, w₁.inst.snap (Stair.ode (F := XRat)) = ⟨d, true, Arith.lit 1, false, w₁.inst.ctx.time, 0, w₁.inst.ctx.time⟩ ∧
        d.counter = w₁.inst.mv.data.counter := by
    rintro emu era p w₁ w₂ ⟨w, f₁, x, fuel, ops, outs, hw, e₁, -⟩
    obtain ⟨a1, a2, a3⟩ := (hw.call e₁ (by simp [FMI3.Op.fn])).stair
    obtain ⟨hz, hts, -⟩ := FMI3.exit_start hk (hw.reachable.proper.reachable hk) e₁
    have hts' : w₁.inst.ctx.time = w₁.inst.startTime := hts
    refine ⟨w₁.inst.mv.data, ?_, rfl⟩
    unfold Comp.snap
    rw [a1, a2, a3, ← hts', show w₁.inst.nSteps = 0 from hz]
    rfl
  obtain ⟨⟨c⟩, s1, d1⟩ := p1 h
  obtain ⟨⟨c'⟩, s1', d1'⟩ := p1 h'
  simp only at d1 d1'
  have hcc : c = c' := by rw [d1, d1', e1]
  subst hcc
  rw [← et] at s1
  rw [← e0, ← et] at s1'
  rw [← d1] at ec
  subst ec
  have kf := Snap.follows (Stair.ode (F := XRat)) rfl (ev := Stair.ev) (by intro _ _ _ _ h e; cases h; exact Stair.ev_eq e)
  have key : ∀ (p : Bool) (x : Comp XRat Stair.Data) {s}, x.snap (Stair.ode (F := XRat)) = s →
      FMI3.Pending Stair.model (fun s c => c.snap (Stair.ode (F := XRat)) = s) (fun s c => Stair.ev (c.snap (Stair.ode (F := XRat))) = s) p
        (if p then Stair.ev s else s) x := by
    rintro p x s rfl
    cases p
    · exact (rfl : x.snap (Stair.ode (F := XRat)) = x.snap (Stair.ode (F := XRat)))
    · exact ⟨rfl, rfl⟩
  obtain ⟨r2, n, hn, ht2⟩ := h.follows kf hm Stair.reads (h := 1 / 5) (by decide +kernel) (fun _ h => h.reachable) (key _ _ s1) et.symm
  obtain ⟨r2', n', hn', ht2'⟩ := h'.follows kf hm Stair.reads (h := 1 / 5) (by decide +kernel) (fun _ h => h.reachable) (key _ _ s1')
    (e0.symm.trans et.symm)
  have he := hend.val Lens.stair r2 r2' (t := .float64) (r := 0) (by simp) (by simp)
  simp only [Lens.stair] at he
  have hnn : n = n' := FMI3.steps_eq (h := 1 / 5) (by norm_num) (ht2.symm.trans (he.trans ht2'))
  subst hnn
  have hpe : ∀ s : Snap XRat Stair.Data, s = ⟨⟨k⟩, true, Arith.lit 1, false, .fin t₀, 0, .fin t₀⟩ →
      (if p then Stair.ev s else s) = if p' then Stair.ev s else s := by
    rintro s rfl
    rcases hp with rfl | ⟨h1, h2⟩
    · rfl
    · have : Stair.ev (⟨⟨k⟩, true, Arith.lit 1, false, .fin t₀, 0, .fin t₀⟩ : Snap XRat Stair.Data) =
          ⟨⟨k⟩, true, Arith.lit 1, false, .fin t₀, 0, .fin t₀⟩ := by
        unfold Stair.ev
        have : isClose (XRat.fin t₀) (Arith.lit 1) = false := (isClose_fin_false _ _).2 h2
        simp only [this, Bool.and_false, Bool.false_eq_true, if_false]
        rw [if_neg (by omega), decide_eq_false (by omega)]
      rw [this, ite_self, ite_self]
  rw [hpe _ rfl] at hn
  have hs := hn.trans hn'.symm
  have hd : w₂.inst.mv.data = w₂'.inst.mv.data := congrArg Snap.data hs
  refine .of_val Lens.stair r2 r2' fun t r hv' => ⟨hv', ?_⟩
  rw [he, hd]

/-- **C46** for the Feedthrough FMU, in exact arithmetic: as for the BouncingBall FMU. -/
theorem C46_feedthrough_partial {vars : List (VType × Nat)}
    (hv : vars = [(.float64, 0), (.float32, 1), (.float32, 2), (.float32, 3), (.float32, 4), (.float64, 5), (.float64, 6),
      (.float64, 7), (.float64, 8), (.float64, 9), (.float64, 10), (.int8, 11), (.int8, 12), (.uint8, 13), (.uint8, 14),
      (.int16, 15), (.int16, 16), (.uint16, 17), (.uint16, 18), (.int32, 19), (.int32, 20), (.uint32, 21), (.uint32, 22),
      (.int64, 23), (.int64, 24), (.uint64, 25), (.uint64, 26), (.boolean, 27), (.boolean, 28), (.string, 29), (.string, 30),
      (.binary, 31), (.binary, 32), (.int64, 33), (.int64, 34)])
    {emu emu' era era' p p' : Bool} {w₁ w₂ w₁' w₂' : FMI3.World XRat (Feedthrough.Data XRat)}
    (h : Handles (Feedthrough.model true) (ReachableCS (Feedthrough.model true) emu era) p w₁ w₂)
    (h' : Handles (Feedthrough.model true) (ReachableCS (Feedthrough.model true) emu' era') p' w₁' w₂')
    (ha : SameValues vars (Feedthrough.model true) w₁ w₁') {t₀ : Rat}
    (ht : FMI3.Reads (Feedthrough.model true) w₁ .float64 0 (.fin t₀)) (hend : SameValues [(.float64, 0)] (Feedthrough.model true) w₂ w₂') :
    SameValues vars (Feedthrough.model true) w₂ w₂' := by
  have hm : RefFMU3 (Feedthrough.model true : Model XRat _) := .feedthrough
  have hk := hm.eff.okOrError
  have hre := ((h.first fun _ h => h).proper.reachable hk).readable hk
  have hre' := ((h'.first fun _ h => h).proper.reachable hk).readable hk
  have q := fun {t r} => ha.val Lens.feedthrough3 hre hre' (t := t) (r := r)
  have e0 := q (t := .float64) (r := 0) (by simp [hv]) (by simp)
  have et := ht.unique (FMI3.reads_lens Lens.feedthrough3 (by simp) hre)
  simp only [Lens.feedthrough3] at e0 et
  have key : ∀ (p : Bool) (x : Comp XRat (Feedthrough.Data XRat)) (d), Feedthrough.upd x.mv.data = d →
      FMI3.Pending (Feedthrough.model true) (fun _ c => Feedthrough.upd c.mv.data = d) (fun _ c => Feedthrough.upd c.mv.data = d) p
        () x := by
    intro p x d h
    cases p
    · exact h
    · exact ⟨rfl, h⟩
  obtain ⟨r2, n, hn, ht2⟩ := h.follows (Feedthrough.follows true _) hm (Feedthrough.reads true) (h := 1 / 10) rfl (fun _ h => h)
    (key _ _ _ rfl) et.symm
  obtain ⟨r2', n', hn', ht2'⟩ := h'.follows (Feedthrough.follows true _) hm (Feedthrough.reads true) (h := 1 / 10) rfl (fun _ h => h)
    (key _ _ _ rfl) (e0.symm.trans et.symm)
  have he := hend.val Lens.feedthrough3 r2 r2' (t := .float64) (r := 0) (by simp) (by simp)
  simp only [Lens.feedthrough3] at he
  refine .of_val Lens.feedthrough3 r2 r2' fun t r hv' => ⟨hv ▸ hv', ?_⟩
  have e := q hv' (hv ▸ hv')
  rw [← Lens.feedthrough3.upd_val t r _ w₁.inst.mv.data, ← Lens.feedthrough3.upd_val t r _ w₁'.inst.mv.data] at e
  rw [← Lens.feedthrough3.upd_val t r _ w₂.inst.mv.data, ← Lens.feedthrough3.upd_val t r _ w₂'.inst.mv.data]
  have h1 : Lens.feedthrough3.upd w₂.inst.mv.data = Lens.feedthrough3.upd w₁.inst.mv.data := hn
  have h2 : Lens.feedthrough3.upd w₂'.inst.mv.data = Lens.feedthrough3.upd w₁'.inst.mv.data := hn'
  rw [h1, h2, he]
  rw [et.symm, e0.symm.trans et.symm] at e
  subst hv
  simp only [List.mem_cons, List.not_mem_nil, or_false, Prod.mk.injEq] at hv'
  repeat' (refine Or.elim hv' ?_ ?_ <;> clear hv' <;> intro hv')
  all_goals (cases hv'.1; cases hv'.2; first | rfl | exact e)

/-! Non-vacuity -/

section examples
open Ex

/-- `FMI3.Handled` as a test. -/
def C46.handled {F : Type} : Bool → List (FMI3.Op F) → List (Status × FMI3.Out F) → Bool → Bool
  | p, op :: ops, (_, o) :: outs, p' =>
    match op with
    | .doStep .. => p == false && handled o.needsEvent ops outs p'
    | .updateDiscreteStates .. => p == true && handled false ops outs p'
    | _ => handled p ops outs p'
  | p, _, _, p' => p == p'

theorem C46.handled_iff {F : Type} : ∀ (p : Bool) (ops : List (FMI3.Op F)) (outs : List (Status × FMI3.Out F)) (p' : Bool),
    C46.handled p ops outs p' = true → FMI3.Handled p ops outs p'
  | p, op :: ops, (_, o) :: outs, p' => by
    have ih := fun p => C46.handled_iff p ops outs p'
    cases op <;> simp only [C46.handled, FMI3.Handled, Bool.and_eq_true, beq_iff_eq] <;>
      first | exact ih _ | exact fun h => ⟨h.1, ih _ h.2⟩
  | p, [], _, p' => by simp [C46.handled, FMI3.Handled]
  | p, _ :: _, [], p' => by simp [C46.handled, FMI3.Handled]

/-- Initialise, leave the Initialization Mode and simulate. -/
def C46.sim {D : Type} (m : Model XRat D) (emu era p : Bool) (pre ops : List (FMI3.Op XRat))
    (q : FMI3.World XRat D → FMI3.World XRat D → Bool) : Bool :=
  (runCS3 m emu era pre).is fun x => (FMI3.step m 1000 x.1 .exitInitializationMode).is fun y => decide (y.2.1 = .OK) &&
    (FMI3.run m 1000 y.1 ops).is fun z => z.2.all (fun p => decide (p.1 = .OK)) && C46.handled p ops z.2 false &&
      q y.1 z.1

theorem C46.handles {D : Type} {m : Model XRat D} {emu era p : Bool} {pre ops q} (h : C46.sim m emu era p pre ops q = true)
    (hpre : ∀ op ∈ pre, op.fn ∉ [FMI3.Fn.doStep, .updateDiscreteStates, .setFMUState, .enterStepMode])
    (hops : ∀ op ∈ ops, ¬ FMI3.Interferes op) (hl : ops.length < 1000) :
    ∃ w₁ w₂, Handles m (Prepared m emu era) p w₁ w₂ ∧ q w₁ w₂ = true := by
  obtain ⟨⟨w, o⟩, e1, h⟩ := Outcome.exists_of_is h
  obtain ⟨⟨w₁, s, o1⟩, e2, h⟩ := Outcome.exists_of_is h
  simp only [Bool.and_eq_true, decide_eq_true_eq] at h
  obtain ⟨rfl, h⟩ := h
  obtain ⟨⟨w₂, outs⟩, e3, h⟩ := Outcome.exists_of_is h
  simp only [Bool.and_eq_true, List.all_eq_true, decide_eq_true_eq] at h
  exact ⟨w₁, w₂, ⟨w, _, _, 1000, ops, outs, prepared3 e1 hpre, e2, hops, e3, h.1.1, C46.handled_iff _ _ _ _ h.1.2, by omega⟩, h.2⟩

/-- The results of `fmi3UpdateDiscreteStates` are wanted. -/
def C46.upd : FMI3.Op XRat :=
  .updateDiscreteStates ⟨some false, some false, some false, some false, some false, some (.fin 0)⟩

/-- A ball that bounces in the 5th step, with Event Mode and early return: the first `fmi3DoStep` returns early, and the
importer handles the event; also the step behind the event reports one. -/
example : ∃ w₁ w₂ : FMI3.World XRat (BouncingBall.Data XRat), Handles BouncingBall.model (Prepared BouncingBall.model true true) true w₁ w₂ ∧
    (has Lens.bouncingBall w₁.inst .float64 1 (.fin (1 / 100)) && has Lens.bouncingBall w₁.inst .float64 3 (.fin (-2)) &&
      has Lens.bouncingBall w₂.inst .float64 0 (.fin (7 / 1000)) &&
      has Lens.bouncingBall w₂.inst .float64 3 (.fin (Ball.next^[7] ⟨1 / 100, -2, -981 / 100, 7 / 10⟩).v)) = true :=
  C46.handles (pre := [.set .float64 (some [1, 3]) 2 (some [.fin (1 / 100), .fin (-2)]) 2, .enterInitializationMode (.fin 0) false (.fin 0)])
    (ops := [C46.upd, .enterStepMode, .doStep (.fin 0) (.fin (7 / 1000)) stepOut, .enterEventMode, C46.upd, .enterStepMode,
      .doStep (.fin (5 / 1000)) (.fin (2 / 1000)) stepOut, .enterEventMode, C46.upd, .enterStepMode,
      .doStep (.fin (6 / 1000)) (.fin (1 / 1000)) stepOut])
    (by decide +kernel) (by simp [FMI3.Op.fn]) (by simp [C46.upd, FMI3.Interferes, FMI3.Op.fn]) (by decide)

/-- The same ball without Event Mode. -/
example : ∃ w₁ w₂ : FMI3.World XRat (BouncingBall.Data XRat), Handles BouncingBall.model (Prepared BouncingBall.model false false) false w₁ w₂ ∧
    (has Lens.bouncingBall w₁.inst .float64 1 (.fin (1 / 100)) && has Lens.bouncingBall w₁.inst .float64 3 (.fin (-2)) &&
      has Lens.bouncingBall w₂.inst .float64 0 (.fin (7 / 1000)) &&
      has Lens.bouncingBall w₂.inst .float64 3 (.fin (Ball.next^[7] ⟨1 / 100, -2, -981 / 100, 7 / 10⟩).v)) = true :=
  C46.handles (pre := [.set .float64 (some [1, 3]) 2 (some [.fin (1 / 100), .fin (-2)]) 2, .enterInitializationMode (.fin 0) false (.fin 0)])
    (ops := [.doStep (.fin 0) (.fin (3 / 1000)) stepOut, .doStep (.fin (3 / 1000)) (.fin (4 / 1000)) stepOut])
    (by decide +kernel) (by simp [FMI3.Op.fn]) (by simp [FMI3.Interferes, FMI3.Op.fn]) (by decide)

/-- The Stair FMU with Event Mode. -/
example : ∃ w₁ w₂ : FMI3.World XRat Stair.Data, Handles Stair.model (Prepared Stair.model true true) true w₁ w₂ ∧
    (has Lens.stair w₁.inst .int32 1 (1 : Int) && has Lens.stair w₂.inst .float64 0 (.fin (12 / 5)) && has Lens.stair w₂.inst .int32 1 (3 : Int)) = true :=
  C46.handles (pre := [.enterInitializationMode (.fin 0) false (.fin 0)])
    (ops := [C46.upd, .enterStepMode, .doStep (.fin 0) (.fin (12 / 5)) stepOut, .enterEventMode, C46.upd, .enterStepMode,
      .doStep (.fin 1) (.fin (7 / 5)) stepOut, .enterEventMode, C46.upd, .enterStepMode, .doStep (.fin 2) (.fin (2 / 5)) stepOut])
    (by decide +kernel) (by simp [FMI3.Op.fn]) (by simp [C46.upd, FMI3.Interferes, FMI3.Op.fn]) (by decide)

/-- The Stair FMU without Event Mode. -/
example : ∃ w₁ w₂ : FMI3.World XRat Stair.Data, Handles Stair.model (Prepared Stair.model false false) false w₁ w₂ ∧
    (has Lens.stair w₁.inst .int32 1 (1 : Int) && has Lens.stair w₂.inst .float64 0 (.fin (12 / 5)) && has Lens.stair w₂.inst .int32 1 (3 : Int)) = true :=
  C46.handles (pre := [.enterInitializationMode (.fin 0) false (.fin 0)])
    (ops := [.doStep (.fin 0) (.fin (12 / 5)) stepOut])
    (by decide +kernel) (by simp [FMI3.Op.fn]) (by simp [FMI3.Interferes, FMI3.Op.fn]) (by decide)

end examples

end Verif
