import Verif.RefFMUs
import Verif.Lemmas.Loop
import Verif.Lemmas.RelComp

/-!
# FMUs as systems of ordinary differential equations

`Ode m` describes the continuous part of an FMU by plain functions on its data and relates them to
the functions of `model.c`. `doFixedStep_ode` says what a solver step computes.
-/

set_option linter.unusedSectionVars false

namespace Verif
variable {F D : Type}

section vec
variable {α : Type}

theorem writeN_eq : ∀ (vs l : List α) (i : Nat), i + vs.length ≤ l.length →
    writeN (some l) i vs = .ret (some (l.take i ++ vs ++ l.drop (i + vs.length))) := by
  intro vs
  induction vs with
  | nil => intro l i _; simp [writeN]
  | cons v vs ih =>
    intro l i h
    simp only [List.length_cons] at h
    simp only [writeN, Ptr.write, if_pos (by omega : i < l.length), Outcome.ret_bind]
    rw [ih _ _ (by simp; omega)]
    congr 2
    rw [List.take_add_one]
    simp [List.take_set_of_le, List.drop_set, (by omega : i < l.length)]
    rw [if_pos (by omega)]
    congr 1; omega

theorem readN_eq : ∀ (n : Nat) (l : List α) (i : Nat), i + n ≤ l.length →
    readN (some l) i n = .ret ((l.drop i).take n) := by
  intro n
  induction n with
  | zero => intro l i _; simp [readN]
  | succ n ih =>
    intro l i h
    have hi : i < l.length := by omega
    simp only [readN, Ptr.read, List.getElem?_eq_getElem hi, Outcome.ret_bind, ih l (i + 1) (by omega)]
    rw [List.drop_eq_getElem_cons hi, List.take_succ_cons]

theorem putVector_eq {ctx : Ctx F} {mv mv' : MV F D} {l vs : List F} (h : vs.length ≤ l.length) :
    putVector ctx mv mv' (some l) vs.length vs = .ret (mv', .OK, some (vs ++ l.drop vs.length)) := by
  simp [putVector, assertNotNull, assertSize, writeN_eq _ _ 0 (by omega : 0 + vs.length ≤ l.length)]

theorem takeVector_eq {ctx : Ctx F} {mv : MV F D} {l : List F} {n : Nat} {upd} (h : n ≤ l.length) :
    takeVector ctx mv (some l) n n upd =
      .ret ({ mv with data := upd (l.take n), isDirtyValues := true }, .OK, some l) := by
  simp [takeVector, assertNotNull, assertSize, readN_eq n l 0 (by omega : 0 + n ≤ l.length)]

end vec

variable [Arith F]

/-- The continuous part of an FMU. -/
structure Ode (m : Model F D) where
  /-- number of states -/
  nx : Nat
  /-- number of event indicators -/
  nz : Nat
  /-- data with up to date dependent variables -/
  calc' : D → D
  states : D → List F
  derivs : D → List F
  inds : D → List F
  upd : D → List F → D
  maxNX : m.maxNX = nx
  maxNZ : m.maxNZ = nz
  numX : ∀ mv, m.numContinuousStates mv = nx
  numZ : ∀ mv, m.numEventIndicators mv = nz
  lenX : ∀ d, (states d).length = nx
  lenD : ∀ d, (derivs d).length = nx
  lenZ : ∀ d, (inds d).length = nz
  calc_calc : ∀ d, calc' (calc' d) = calc' d
  states_calc : ∀ d, states (calc' d) = states d
  derivs_calc : ∀ d, derivs (calc' d) = derivs d
  inds_calc : ∀ d, inds (calc' d) = inds d
  upd_calc : ∀ d l, calc' (upd (calc' d) l) = calc' (upd d l)
  getStates : 0 < nx → ∀ ctx mv p n, m.getContinuousStates ctx mv p n =
    putVector ctx mv { mv with data := calc' mv.data, isDirtyValues := false } p n (states mv.data)
  getDerivs : 0 < nx → ∀ ctx mv p n, m.getDerivatives ctx mv p n =
    putVector ctx mv { mv with data := calc' mv.data, isDirtyValues := false } p n (derivs mv.data)
  setStates : 0 < nx → ∀ ctx mv p n, m.setContinuousStates ctx mv p n =
    takeVector ctx mv p n nx (upd mv.data)
  getInds : 0 < nz → ∀ ctx mv p n, m.getEventIndicators ctx mv p n =
    putVector ctx mv { mv with data := calc' mv.data, isDirtyValues := false } p n (inds mv.data)

namespace Ode
variable {m : Model F D}

/-- The forward Euler step on the data. -/
def euler (o : Ode m) (d : D) : D :=
  if o.nx = 0 then d else o.upd d (eulerUpdate m.h o.nx (o.states d) (o.derivs d))

theorem euler_calc (o : Ode m) (d : D) : o.calc' (o.euler (o.calc' d)) = o.calc' (o.euler d) := by
  unfold euler
  split
  · exact o.calc_calc d
  · rw [o.states_calc, o.derivs_calc, o.upd_calc]

/-- The instance is set up for `DoStep`. -/
structure Ready (o : Ode m) (c : Comp F D) : Prop where
  lens : c.Lens m
  nx : 0 < o.nx → c.nx = o.nx
  nz : 0 < o.nz → c.nz = o.nz

theorem eulerStep_eq (o : Ode m) {c : Comp F D} (h : o.Ready c) :
    ∃ c', eulerStep m c = .ret (c', .OK, ()) ∧ o.Ready c' ∧ Frame c c' ∧ c'.z = c.z ∧
      c'.prez = c.prez ∧ o.calc' c'.mv.data = o.calc' (o.euler c.mv.data) ∧
      c'.mv = { c.mv with data := c'.mv.data, isDirtyValues := c'.mv.isDirtyValues } := by
  unfold eulerStep euler
  by_cases h0 : o.nx = 0
  · rw [if_neg (by simp [o.maxNX, h0]), if_pos h0]
    exact ⟨c, rfl, h, .refl c, rfl, rfl, rfl, rfl⟩
  · have hpos : 0 < o.nx := by omega
    have hx : c.x.length = o.nx := by rw [h.lens.x, o.maxNX]
    have hdx : c.dx.length = o.nx := by rw [h.lens.dx, o.maxNX]
    have e1 : ∀ ctx mv, m.getContinuousStates ctx mv (some c.x) c.nx =
        .ret ({ mv with data := o.calc' mv.data, isDirtyValues := false }, .OK,
          some (o.states mv.data)) := by
      intro ctx mv
      rw [o.getStates hpos, h.nx hpos]
      have := putVector_eq (ctx := ctx) (mv := mv)
        (mv' := { mv with data := o.calc' mv.data, isDirtyValues := false })
        (l := c.x) (vs := o.states mv.data) (by rw [o.lenX, hx]; exact Nat.le_refl _)
      rw [o.lenX] at this
      rw [this, List.drop_eq_nil_of_le (by omega), List.append_nil]
    have e2 : ∀ ctx mv, m.getDerivatives ctx mv (some c.dx) c.nx =
        .ret ({ mv with data := o.calc' mv.data, isDirtyValues := false }, .OK,
          some (o.derivs mv.data)) := by
      intro ctx mv
      rw [o.getDerivs hpos, h.nx hpos]
      have := putVector_eq (ctx := ctx) (mv := mv)
        (mv' := { mv with data := o.calc' mv.data, isDirtyValues := false })
        (l := c.dx) (vs := o.derivs mv.data) (by rw [o.lenD, hdx]; exact Nat.le_refl _)
      rw [o.lenD] at this
      rw [this, List.drop_eq_nil_of_le (by omega), List.append_nil]
    have e3 : ∀ ctx mv l, l.length = o.nx → m.setContinuousStates ctx mv (some l) c.nx =
        .ret ({ mv with data := o.upd mv.data l, isDirtyValues := true }, .OK, some l) := by
      intro ctx mv l hl
      rw [o.setStates hpos, h.nx hpos, takeVector_eq (by omega), List.take_of_length_le (by omega)]
    rw [if_pos (by simp [o.maxNX, h.nx hpos, hpos]), if_neg h0]
    have hl : (eulerUpdate m.h c.nx (o.states c.mv.data) (o.derivs (o.calc' c.mv.data))).length =
        o.nx := by rw [eulerUpdate_length, o.lenX]
    simp only [callCo, Comp.lift, e1, e2, e3 _ _ _ hl, Outcome.ret_bind, Option.getD_some]
    refine ⟨_, rfl, ⟨⟨h.lens.z, h.lens.prez, ?_, ?_⟩, h.nx, h.nz⟩, rfl, rfl, rfl, ?_, rfl⟩
    · simp [hl, o.maxNX]
    · simp [o.lenD, o.maxNX]
    · simp only [o.calc_calc, o.upd_calc, o.derivs_calc, h.nx hpos]

/-- The state event found by a solver step that ends with data `d`. -/
def crossing (o : Ode m) (prez : List F) (d : D) : Bool :=
  if o.nz = 0 then false else zeroCrossing o.nz prez (o.inds d)

theorem detect_eq (o : Ode m) {c : Comp F D} (h : o.Ready c) :
    ∃ c', detectStateEvent m c = .ret (c', .OK, o.crossing c.prez c.mv.data) ∧ o.Ready c' ∧
      Frame c c' ∧ (0 < o.nz → c'.z = o.inds c'.mv.data ∧ c'.prez = o.inds c'.mv.data) ∧
      o.calc' c'.mv.data = o.calc' c.mv.data ∧ c'.x = c.x ∧
      c'.mv = { c.mv with data := c'.mv.data, isDirtyValues := c'.mv.isDirtyValues } := by
  unfold detectStateEvent crossing
  by_cases h0 : o.nz = 0
  · rw [if_neg (by simp [o.maxNZ, h0]), if_pos h0]
    exact ⟨c, rfl, h, .refl c, fun h => absurd h0 (by omega), rfl, rfl, rfl⟩
  · have hpos : 0 < o.nz := by omega
    have hz : c.z.length = o.nz := by rw [h.lens.z, o.maxNZ]
    have hpz : c.prez.length = o.nz := by rw [h.lens.prez, o.maxNZ]
    have e1 : ∀ ctx mv, m.getEventIndicators ctx mv (some c.z) c.nz =
        .ret ({ mv with data := o.calc' mv.data, isDirtyValues := false }, .OK,
          some (o.inds mv.data)) := by
      intro ctx mv
      rw [o.getInds hpos, h.nz hpos]
      have := putVector_eq (ctx := ctx) (mv := mv)
        (mv' := { mv with data := o.calc' mv.data, isDirtyValues := false })
        (l := c.z) (vs := o.inds mv.data) (by rw [o.lenZ, hz]; exact Nat.le_refl _)
      rw [o.lenZ] at this
      rw [this, List.drop_eq_nil_of_le (by omega), List.append_nil]
    rw [if_pos (by simp [o.maxNZ, h.nz hpos, hpos]), if_neg h0]
    have hc : copyN c.prez (o.inds c.mv.data) c.nz = o.inds c.mv.data := by
      rw [h.nz hpos, copyN, List.take_of_length_le (by rw [o.lenZ]; exact Nat.le_refl _),
        List.drop_eq_nil_of_le (by omega), List.append_nil]
    simp only [callCo, Comp.lift, e1, Outcome.ret_bind, Option.getD_some]
    simp only [ne_eq, not_true, if_false, hc]
    rw [show zeroCrossing o.nz c.prez (o.inds c.mv.data) =
      zeroCrossing c.nz c.prez (o.inds c.mv.data) from by rw [h.nz hpos]]
    refine ⟨_, rfl, ⟨⟨?_, ?_, h.lens.x, h.lens.dx⟩, h.nx, h.nz⟩, rfl, ?_, ?_, rfl, rfl⟩
    · simp [o.lenZ, o.maxNZ]
    · simp [o.lenZ, o.maxNZ]
    · intro _; simp only [o.inds_calc]; exact ⟨trivial, trivial⟩
    · simp only [o.calc_calc]

theorem Ready.advance {o : Ode m} {c : Comp F D} (h : o.Ready c) : o.Ready (advanceTime m c) :=
  ⟨⟨h.lens.z, h.lens.prez, h.lens.x, h.lens.dx⟩, h.nx, h.nz⟩

theorem Ready.notify {o : Ode m} {c : Comp F D} (h : o.Ready c) : o.Ready c.notify := by
  unfold Comp.notify
  split
  · exact ⟨⟨h.lens.z, h.lens.prez, h.lens.x, h.lens.dx⟩, h.nx, h.nz⟩
  · exact h

theorem notify_mv (c : Comp F D) : c.notify.mv = { c.mv with trace := c.notify.mv.trace } := by
  unfold Comp.notify; split <;> rfl
theorem notify_arr (c : Comp F D) : c.notify.prez = c.prez ∧ c.notify.z = c.z := by
  unfold Comp.notify; split <;> exact ⟨rfl, rfl⟩

/-- A solver step succeeds and performs the forward Euler step. -/
theorem fixedStep_eq (o : Ode m) {c : Comp F D} (h : o.Ready c) :
    ∃ c', doFixedStep m c = .ret (c', .OK, some (o.crossing c.prez (o.euler c.mv.data),
        c.mv.nextEventTimeDefined && (c.mv.nextEventTime <=. (advanceTime m c).ctx.time))) ∧
      o.Ready c' ∧ Frame (advanceTime m c) c' ∧
      (0 < o.nz → c'.prez = o.inds c'.mv.data) ∧
      o.calc' c'.mv.data = o.calc' (o.euler c.mv.data) ∧
      c'.mv = { c.mv with data := c'.mv.data, isDirtyValues := c'.mv.isDirtyValues,
                          trace := c'.mv.trace } := by
  obtain ⟨c1, e1, r1, f1, hz1, hp1, hd1, hm1⟩ := o.eulerStep_eq h
  obtain ⟨c2, e2, r2, f2, hz2, hd2, -, hm2⟩ := o.detect_eq r1.advance
  have hcr : o.crossing (advanceTime m c1).prez (advanceTime m c1).mv.data =
      o.crossing c.prez (o.euler c.mv.data) := by
    show o.crossing c1.prez c1.mv.data = _
    unfold crossing
    rw [hp1, ← o.inds_calc c1.mv.data, hd1, o.inds_calc]
  refine ⟨c2.notify, ?_, r2.notify, (f1.advance.trans f2).trans (Frame.notify _), ?_, ?_, ?_⟩
  · have ht : c2.ctx.time = (advanceTime m c).ctx.time := by rw [(f1.advance.trans f2).ctx]
    have hn : c2.mv.nextEventTimeDefined = c.mv.nextEventTimeDefined ∧
        c2.mv.nextEventTime = c.mv.nextEventTime := by
      rw [hm2]
      show c1.mv.nextEventTimeDefined = _ ∧ c1.mv.nextEventTime = _
      rw [hm1]
      exact ⟨rfl, rfl⟩
    rw [hcr] at e2
    unfold doFixedStep
    simp only [callCo, e1, Outcome.ret_bind, ne_eq, not_true, if_false, e2]
    rw [← ht, ← hn.1, ← hn.2]
    rfl
  · intro hp
    rw [(notify_arr c2).1, notify_mv]
    exact (hz2 hp).2
  · rw [notify_mv]
    show o.calc' c2.mv.data = _
    rw [hd2]
    exact hd1
  · rw [notify_mv]
    simp only [MV.mk.injEq]
    have a1 : (advanceTime m c1).mv = c1.mv := rfl
    rw [a1] at hm2
    rw [hm2]
    simp only
    rw [hm1]
    simp

end Ode
end Verif
