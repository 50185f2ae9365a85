import Verif.Lemmas.Legal2
import Verif.Lemmas.Legal3
import Verif.Lemmas.OdeRef
import Verif.Lemmas.Ready
import Verif.Lemmas.Traj
import Verif.Lemmas.EventInfo
import Verif.Lemmas.Close

/-! # `DoStep` does not fail in a session that is not over -/

set_option linter.unusedSectionVars false

namespace Verif
variable {F D : Type} [Arith F] {m : Model F D} {p : Profile F D}

/-- Whether the simulation is over changes only in events, and the event that ends it requests the termination. -/
structure Ongoing (p : Profile F D) (o : Ode m) : Prop where
  solver : ∀ d d', o.calc' d' = o.calc' (o.euler d) → p.over d' → p.over d
  «calc» : ∀ d, p.over (o.calc' d) → p.over d
  event : ∀ eu, m.eventUpdate = some eu → ∀ ctx mv, (eu ctx mv).All fun x =>
    x.2.1 = .OK → x.1.terminateSimulation = false → ¬p.over x.1.data

theorem Ongoing.never {o : Ode m} (h : ∀ d, ¬p.over d) : Ongoing p o :=
  ⟨fun _ d' _ h' => absurd h' (h d'), fun _ h' => absurd h' (h _), fun _ _ _ _ _ _ _ _ => h _⟩

theorem Ongoing.stair : Ongoing (.stair : Profile F Stair.Data) Stair.ode where
  solver d d' h := by
    have h : d' = d := h
    rw [h]; exact id
  «calc» _ h := h
  event eu he ctx mv := by
    cases he
    rintro ⟨mv', s, b⟩ e rfl ht h
    obtain ⟨h1, h2, -⟩ := Stair.updated e
    have h : 10 ≤ mv'.data.counter := h
    simp only at ht
    rw [ht] at h2
    have := of_decide_eq_false h2.symm
    omega

theorem FMI2.Describes.ongoing (h : FMI2.Describes m p) : ∃ o : Ode m, Ongoing p o := by
  cases h
  · exact ⟨BouncingBall.ode, .never fun _ => id⟩
  · exact ⟨Dahlquist.ode, .never fun _ => id⟩
  · exact ⟨Feedthrough.ode _, .never fun _ => id⟩
  · exact ⟨Resource.ode _ _, .never fun _ => id⟩
  · exact ⟨Stair.ode, .stair⟩
  · exact ⟨VanDerPol.ode, .never fun _ => id⟩

theorem FMI3.Describes.ongoing (h : FMI3.Describes m p) : ∃ o : Ode m, Ongoing p o := by
  cases h
  · exact ⟨BouncingBall.ode, .never fun _ => id⟩
  · exact ⟨Clocks.ode, .never fun _ => id⟩
  · exact ⟨Dahlquist.ode, .never fun _ => id⟩
  · exact ⟨Feedthrough.ode _, .never fun _ => id⟩
  · exact ⟨Resource.ode _ _, .never fun _ => id⟩
  · exact ⟨Roberts.ode, .never fun _ => id⟩
  · exact ⟨Stair.ode, .stair⟩
  · exact ⟨VanDerPol.ode, .never fun _ => id⟩

theorem Ode.Ready.lifted {o : Ode m} {β : Type} {c c' : Comp F D} {r : MRes F D β} {s b} (h : o.Ready c)
    (e : c.lift r = .ret (c', s, b)) : o.Ready c' := by
  obtain ⟨mv, -, rfl⟩ := lift_eq_ret.1 e
  exact ⟨⟨h.lens.z, h.lens.prez, h.lens.x, h.lens.dx⟩, h.nx, h.nz⟩

theorem FMI2.iter_ok {o : Ode m} (hl : Lawful m p) (ho : Ongoing p o) {c c' : Comp F D} {s b} (hr : o.Ready c)
    (hp : ¬p.over c.mv.data) (h : iter m c = .ret (c', s, b)) :
    s = .OK ∧ o.Ready c' ∧ (c'.mv.terminateSimulation = false → ¬p.over c'.mv.data) := by
  obtain ⟨c1, e1, r1, -, -, hd, -⟩ := o.fixedStep_eq hr
  have hp1 : ¬p.over c1.mv.data := fun h' => hp (ho.solver _ _ hd h')
  unfold iter Verif.call at h
  rw [e1] at h
  simp only [Outcome.ret_bind, Status.rank, gt_iff_lt, Nat.lt_irrefl, if_false] at h
  unfold handleEvents at h
  cases he : m.eventUpdate with
  | none => rw [he] at h; cases h; exact ⟨rfl, r1, fun _ => hp1⟩
  | some eu =>
    rw [he] at h
    simp only at h
    split at h
    · unfold Verif.call at h
      obtain ⟨⟨c2, s2, u⟩, e2, h⟩ := Outcome.bind_eq_ret.1 h
      have r2 := r1.lifted e2
      obtain ⟨mv, e3, rfl⟩ := lift_eq_ret.1 e2
      have h2 : s2 = .OK := hl.event eu he _ _ hp1 _ e3
      subst h2
      cases h
      exact ⟨rfl, r2, ho.event eu he _ _ _ e3 rfl⟩
    · cases h; exact ⟨rfl, r1, fun _ => hp1⟩

theorem FMI2.Loop.accepted {o : Ode m} (hl : Lawful m p) (ho : Ongoing p o) {next : F} {c c' : Comp F D} {n s}
    (h : Loop m next c n c' s) (hr : o.Ready c) (hp : ¬p.over c.mv.data) : s ≠ .Error := by
  induction h with
  | done => simp
  | step _ e ht _ ih =>
    obtain ⟨-, r, h⟩ := iter_ok hl ho hr hp e
    exact ih r (h ht)
  | discard => simp
  | error _ e => exact absurd (iter_ok hl ho hr hp e).1 (by simp)

theorem FMI3.internalEvent_accepted {o : Ode m} (hl : Lawful m p) (ho : Ongoing p o) (hm : OkOrError m) {eu}
    (he : m.eventUpdate = some eu) {c c' : Comp F D} {s} (hr : o.Ready c) (hp : ¬p.over c.mv.data)
    (h : internalEvent m eu c .OK () (fun c st => .ret (c, st, ())) = .ret (c', s, ())) :
    s = .OK ∧ o.Ready c' ∧ (c'.mv.terminateSimulation = false → ¬p.over c'.mv.data) := by
  unfold internalEvent Verif.call at h
  obtain ⟨⟨c2, s2, u⟩, e2, h⟩ := Outcome.bind_eq_ret.1 h
  have r2 := hr.lifted e2
  obtain ⟨mv, e3, rfl⟩ := lift_eq_ret.1 e2
  have h2 : s2 = .OK := hl.event eu he _ _ hp _ e3
  subst h2
  have ht := ho.event eu he _ _ _ e3 rfl
  simp only [Status.rank, gt_iff_lt, Nat.lt_irrefl, if_false] at h
  split at h
  · next hz =>
    have hpos : 0 < o.nz := o.maxNZ ▸ hz
    have hpz : c.prez.length = o.nz := by rw [hr.lens.prez, o.maxNZ]
    have := putVector_eq (ctx := c.ctx) (mv := mv)
      (mv' := { mv with data := o.calc' mv.data, isDirtyValues := false })
      (l := c.prez) (vs := o.inds mv.data) (by rw [o.lenZ, hpz])
    rw [o.lenZ] at this
    simp only [o.getInds hpos, hr.nz hpos, this, Comp.lift, Outcome.ret_bind, Nat.lt_irrefl, if_false] at h
    cases h
    refine ⟨rfl, ⟨⟨hr.lens.z, ?_, hr.lens.x, hr.lens.dx⟩, hr.nx, fun _ => rfl⟩, fun ht' h' => ht ht' (ho.calc _ h')⟩
    simp only [Option.getD_some, List.length_append, List.length_drop, o.lenZ, o.maxNZ]; omega
  · cases h; exact ⟨rfl, r2, ht⟩

theorem FMI3.iter_ok {o : Ode m} (hl : Lawful m p) (ho : Ongoing p o) (hm : OkOrError m) {c c' : Comp F D} {ehn s q} (hr : o.Ready c)
    (hp : c.eventModeUsed = false → ehn = false ∧ ¬p.over c.mv.data) (h : iter m c ehn = .ret (c', s, q)) :
    s = .OK ∧ o.Ready c' ∧ (q.2 = false → c'.eventModeUsed = false → q.1 = false ∧ ¬p.over c'.mv.data) := by
  have key : ∃ c0 ehn0, pendingEvent m c ehn = .ret (c0, ehn0) ∧ o.Ready c0 ∧ c0.eventModeUsed = c.eventModeUsed ∧
      (c.eventModeUsed = false → ehn0 = false ∧ ¬p.over c0.mv.data) := by
    unfold iter at h
    obtain ⟨⟨c0, ehn0⟩, ep, -⟩ := Outcome.bind_eq_ret.1 h
    refine ⟨c0, ehn0, ep, ?_⟩
    have f := (pendingEvent_frame ep).emu
    unfold pendingEvent at ep
    cases he : m.eventUpdate with
    | none => rw [he] at ep; cases ep; exact ⟨hr, rfl, hp⟩
    | some eu =>
      rw [he] at ep
      simp only at ep
      split at ep
      · next hb =>
        obtain ⟨⟨c1, s1, b⟩, e1, ep⟩ := Outcome.bind_eq_ret.1 ep
        cases ep
        exact ⟨hr.lifted e1, f, fun h' => absurd (hp h').1 (by simp [hb])⟩
      · cases ep; exact ⟨hr, rfl, hp⟩
  obtain ⟨c0, ehn0, ep, r0, f0, hp0⟩ := key
  obtain ⟨c1, e1, r1, f1, -, hd, -⟩ := o.fixedStep_eq r0
  have hp1 : c.eventModeUsed = false → ehn0 = false ∧ ¬p.over c1.mv.data :=
    fun h' => ⟨(hp0 h').1, fun h'' => (hp0 h').2 (ho.solver _ _ hd h'')⟩
  have f1' : c1.eventModeUsed = c.eventModeUsed := f1.emu.trans f0
  unfold iter at h
  rw [ep] at h
  simp only [Outcome.ret_bind] at h
  unfold Verif.call at h
  rw [e1] at h
  simp only [Outcome.ret_bind, Status.rank, gt_iff_lt, Nat.lt_irrefl, if_false] at h
  cases he : m.eventUpdate with
  | none => rw [he] at h; cases h; exact ⟨rfl, r1, fun _ h' => hp1 (f1' ▸ h')⟩
  | some eu =>
    rw [he] at h
    simp only at h
    split at h
    · split at h
      · next hem =>
        split at h
        · cases h; exact ⟨rfl, r1, fun h' => by simp at h'⟩
        · cases h; exact ⟨rfl, r1, fun _ h' => by simp [hem] at h'⟩
      · next hem =>
        have hem : c1.eventModeUsed = false := by simpa using hem
        have hp2 := hp1 (f1' ▸ hem)
        rw [internalEvent_ok hm he] at h
        obtain ⟨⟨c2, s2, u⟩, ei, h⟩ := Outcome.bind_eq_ret.1 h
        obtain ⟨rfl, r2, h2⟩ := internalEvent_accepted hl ho hm he r1 hp2.2 ei
        simp only [if_true] at h
        split at h
        · cases h; exact ⟨rfl, r2, fun h' => by simp at h'⟩
        · cases h; exact ⟨rfl, r2, fun h' _ => ⟨hp2.1, h2 h'⟩⟩
    · cases h; exact ⟨rfl, r1, fun _ h' => hp1 (f1' ▸ h')⟩

theorem FMI3.Loop.accepted {o : Ode m} (hl : Lawful m p) (ho : Ongoing p o) (hm : OkOrError m) {next : F} {c c' : Comp F D} {ehn n s e r}
    (h : Loop m next c ehn n c' s e r) (hr : o.Ready c) (hp : c.eventModeUsed = false → ehn = false ∧ ¬p.over c.mv.data) :
    s = .OK := by
  induction h with
  | done => rfl
  | step _ e _ ih =>
    obtain ⟨-, r, h⟩ := iter_ok hl ho hm hr hp e
    exact ih r (h rfl)
  | leave => rfl
  | error _ e => exact absurd (iter_ok hl ho hm hr hp e).1 (by simp)

/-- The three checks at the beginning of `DoStep` pass. -/
theorem Clock.Accepts.checks {k : Clock XRat} {ccp h : XRat} (ha : k.Accepts ccp h) :
    isClose ccp k.expected = true ∧ (h <=. Arith.lit 0) = false ∧
      (k.stop <. (ccp +. h) && !isClose (ccp +. h) k.stop) = false := by
  obtain ⟨he, hc, hq, hs⟩ := ha
  refine ⟨by rw [he, isClose_fin]; exact hc, by simpa using hq, ?_⟩
  rcases hs with hs | ⟨s, hs, h⟩
  · rw [hs, XRat.add_fin]; rfl
  · rw [hs, XRat.add_fin]
    rcases h with h | h
    · simp only [Bool.and_eq_false_imp]
      intro h'
      rw [XRat.lt_fin, decide_eq_true_eq] at h'
      exact absurd (lt_of_lt_of_le h' h) (lt_irrefl _)
    · rw [(isClose_fin _ _).2 h]; simp

end Verif
