import Verif.Lemmas.Chain
import Verif.Props.C47

/-! # Communication steps can be joined and cut -/

set_option linter.unusedSectionVars false

namespace Verif

section
variable {F D : Type}

/-- The instance with another expected communication point. -/
def Comp.wn (c : Comp F D) (x : F) : Comp F D := { c with nextCommunicationPoint := x }

/-- The result with another expected communication point. -/
def Res.wn {β : Type} (r : Res F D β) (x : F) : Res F D β := r >>- fun (c, s, b) => .ret (c.wn x, s, b)

theorem Res.wn_eq {β : Type} {r : Res F D β} {c s b} (x : F) (h : r = .ret (c, s, b)) :
    Res.wn r x = .ret (c.wn x, s, b) := by rw [h]; rfl

theorem lift_wn {β : Type} (c : Comp F D) (r : MRes F D β) (x : F) : (c.wn x).lift r = Res.wn (c.lift r) x := by
  cases r <;> rfl

theorem callCo_wn {α β : Type} {r r' : Res F D α} {stop : β} {k : Comp F D → α → Res F D β} {x : F}
    (hr : r' = Res.wn r x) (hk : ∀ c a, k (c.wn x) a = Res.wn (k c a) x) :
    callCo r' stop k = Res.wn (callCo r stop k) x := by
  subst hr
  cases r with
  | ub => rfl
  | hang => rfl
  | ret y =>
    obtain ⟨c, s, a⟩ := y
    show (if s ≠ .OK then _ else k (c.wn x) a) = Res.wn (if s ≠ .OK then _ else k c a) x
    split
    · rfl
    · exact hk c a

theorem call_wn {α β : Type} {st : Status} {r r' : Res F D α} {stop : α → β}
    {k : Comp F D → Status → α → Res F D β} {x : F}
    (hr : r' = Res.wn r x) (hk : ∀ c s a, k (c.wn x) s a = Res.wn (k c s a) x) :
    call st r' stop k = Res.wn (call st r stop k) x := by
  subst hr
  cases r with
  | ub => rfl
  | hang => rfl
  | ret y =>
    obtain ⟨c, s, a⟩ := y
    show (match (if s.rank > st.rank then s else st) with
      | .Discard => _ | .Error => _ | .Fatal => _ | st => _) = Res.wn (match (if s.rank > st.rank then s else st) with
      | .Discard => _ | .Error => _ | .Fatal => _ | st => _) x
    generalize (if s.rank > st.rank then s else st) = s'
    cases s' <;> first | rfl | exact hk _ _ _

variable [Arith F] {m : Model F D}

theorem eulerStep_wn (c : Comp F D) (x : F) : eulerStep m (c.wn x) = Res.wn (eulerStep m c) x := by
  unfold eulerStep
  split
  · next h =>
    have h' : (m.maxNX > 0 && c.nx > 0) = true := h
    rw [if_pos h']
    exact callCo_wn (lift_wn _ _ _) fun c a => callCo_wn (lift_wn { c with x := a.getD c.x } _ _) fun c a =>
      callCo_wn (lift_wn { c with dx := a.getD c.dx, x := eulerUpdate m.h c.nx c.x (a.getD c.dx) } _ _)
        fun c a => rfl
  · next h =>
    have h' : ¬ (m.maxNX > 0 && c.nx > 0) = true := h
    rw [if_neg h']; rfl

theorem detect_wn (c : Comp F D) (x : F) : detectStateEvent m (c.wn x) = Res.wn (detectStateEvent m c) x := by
  unfold detectStateEvent
  split
  · next h =>
    have h' : (m.maxNZ > 0 && c.nz > 0) = true := h
    rw [if_pos h']
    exact callCo_wn (lift_wn _ _ _) fun c a => rfl
  · next h =>
    have h' : ¬ (m.maxNZ > 0 && c.nz > 0) = true := h
    rw [if_neg h']; rfl

theorem fixedStep_wn (c : Comp F D) (x : F) : doFixedStep m (c.wn x) = Res.wn (doFixedStep m c) x := by
  unfold doFixedStep
  refine callCo_wn (eulerStep_wn c x) fun c _ => callCo_wn (detect_wn (advanceTime m c) x) fun c a => ?_
  simp only
  cases h : c.intermediateUpdate
  · have h' : (c.wn x).intermediateUpdate = false := h
    simp only [h', Bool.false_eq_true, if_false]
    rfl
  · have h' : (c.wn x).intermediateUpdate = true := h
    simp only [h', if_true]
    rfl

theorem FMI2.iter_wn (c : Comp F D) (x : F) : FMI2.iter m (c.wn x) = Res.wn (FMI2.iter m c) x := by
  unfold FMI2.iter
  refine call_wn (fixedStep_wn c x) fun c s a => ?_
  unfold FMI2.handleEvents
  cases m.eventUpdate with
  | none => rfl
  | some eu =>
    cases a with
    | none => rfl
    | some p =>
      simp only
      split
      · exact call_wn (lift_wn _ _ _) fun c s a => rfl
      · rfl

theorem FMI3.iter_wn (c : Comp F D) (ehn : Bool) (x : F) : FMI3.iter m (c.wn x) ehn = Res.wn (FMI3.iter m c ehn) x := by
  have key : ∀ (c : Comp F D) (ehn : Bool), (call .OK (doFixedStep m (c.wn x)) (fun _ => (ehn, false)) fun c st ev =>
      let rest (c : Comp F D) (st : Status) (ehn : Bool) : Res F D (Bool × Bool) :=
        .ret (c, st, (ehn, c.mv.terminateSimulation))
      match m.eventUpdate with
      | none => rest c st ehn
      | some eu =>
        match ev with
        | none => .ub
        | some (stateEvent, timeEvent) =>
          if stateEvent || timeEvent then
            let early (c : Comp F D) (st : Status) (ehn : Bool) : Res F D (Bool × Bool) :=
              if c.earlyReturnAllowed then .ret (c, st, (ehn, true)) else rest c st ehn
            if c.eventModeUsed then early c st true
            else FMI3.internalEvent m eu c st (ehn, false) fun c st => early c st ehn
          else rest c st ehn) = Res.wn (call .OK (doFixedStep m c) (fun _ => (ehn, false)) fun c st ev =>
      let rest (c : Comp F D) (st : Status) (ehn : Bool) : Res F D (Bool × Bool) :=
        .ret (c, st, (ehn, c.mv.terminateSimulation))
      match m.eventUpdate with
      | none => rest c st ehn
      | some eu =>
        match ev with
        | none => .ub
        | some (stateEvent, timeEvent) =>
          if stateEvent || timeEvent then
            let early (c : Comp F D) (st : Status) (ehn : Bool) : Res F D (Bool × Bool) :=
              if c.earlyReturnAllowed then .ret (c, st, (ehn, true)) else rest c st ehn
            if c.eventModeUsed then early c st true
            else FMI3.internalEvent m eu c st (ehn, false) fun c st => early c st ehn
          else rest c st ehn) x := by
    intro c ehn
    refine call_wn (fixedStep_wn c x) fun c s a => ?_
    have early : ∀ (c : Comp F D) (st : Status) (ehn : Bool),
        (if (c.wn x).earlyReturnAllowed then (.ret (c.wn x, st, (ehn, true)) : Res F D (Bool × Bool))
          else .ret (c.wn x, st, (ehn, (c.wn x).mv.terminateSimulation))) =
        Res.wn (if c.earlyReturnAllowed then (.ret (c, st, (ehn, true)) : Res F D (Bool × Bool))
          else .ret (c, st, (ehn, c.mv.terminateSimulation))) x := by
      intro c st ehn
      show (if c.earlyReturnAllowed then _ else _) = _
      split <;> rfl
    cases m.eventUpdate with
    | none => rfl
    | some eu =>
      cases a with
      | none => rfl
      | some p =>
        simp only
        split
        · show (if c.eventModeUsed = true then _ else _) = Res.wn (if c.eventModeUsed = true then _ else _) x
          split
          · exact early _ _ _
          · unfold FMI3.internalEvent
            refine call_wn (lift_wn _ _ _) fun c s a => ?_
            split
            · exact call_wn (lift_wn _ _ _) fun c s a => early { c with prez := a.getD c.prez } _ _
            · exact early _ _ _
        · rfl
  unfold FMI3.iter FMI3.pendingEvent
  cases he : m.eventUpdate with
  | none => simp only [he] at key; exact key c ehn
  | some eu =>
    simp only [he] at key
    simp only
    cases ehn with
    | false => exact key c false
    | true =>
      simp only [if_true]
      have h1 := lift_wn c (eu c.ctx c.mv) x
      have h2 : (c.wn x).lift (eu (c.wn x).ctx (c.wn x).mv) = Res.wn (c.lift (eu c.ctx c.mv)) x := h1
      rw [h2]
      cases c.lift (eu c.ctx c.mv) with
      | ub => rfl
      | hang => rfl
      | ret y => exact key y.1 false

theorem FMI2.Loop.wn {q : F} {c c' : Comp F D} {n s} (h : FMI2.Loop m q c n c' s) (x : F) :
    s = .OK → FMI2.Loop m q (c.wn x) n c' s := by
  induction h with
  | @done c hr => exact fun _ => .done (c := c.wn x) hr
  | @step c c1 n c' s hr e ht _ ih =>
    exact fun hs => FMI2.Loop.step (c1 := c1.wn x) hr (by rw [FMI2.iter_wn, e]; rfl) ht (ih hs)
  | discard => intro h; cases h
  | error => intro h; cases h

theorem FMI3.Loop.wn {q : F} {c c' : Comp F D} {ehn n s e r} (h : FMI3.Loop m q c ehn n c' s e r) (x : F) :
    s = .OK → FMI3.Loop m q (c.wn x) ehn n (c'.wn x) s e r := by
  induction h with
  | @done c ehn hr => exact fun _ => .done (c := c.wn x) hr
  | @step c ehn c1 ehn1 n c' s e r hr e _ ih =>
    exact fun hs => FMI3.Loop.step (c1 := c1.wn x) hr (by rw [FMI3.iter_wn, e]; rfl) (ih hs)
  | @leave c ehn c1 ehn1 hr e =>
    exact fun _ => FMI3.Loop.leave (c1 := c1.wn x) hr (by rw [FMI3.iter_wn, e]; rfl)
  | error => intro h; cases h

end

section
variable {D : Type} {m : Model XRat D}

theorem reached_mono {q q' : Rat} {c : Comp XRat D} (hq : q' ≤ q) (h : reached m (.fin q) c = true) :
    reached m (.fin q') c = true := by
  unfold reached at *
  generalize (c.ctx.time +. m.h) = y at *
  rw [Bool.and_eq_true] at *
  cases y with
  | fin t =>
    rw [XRat.lt_fin, decide_eq_true_eq, Bool.not_eq_true', isClose_fin_false] at *
    exact ⟨lt_of_le_of_lt hq h.1, fun hc => h.2 (hc.symm.between' hq h.1.le).symm⟩
  | pinf => exact absurd h.2 (by rw [(C47_infinite q).1]; decide)
  | ninf => exact absurd h.1 (by simp [Arith.lt, XRat.lt])
  | nan => exact absurd h.1 (by simp [Arith.lt, XRat.lt])

namespace FMI2

theorem Loop.join {q q' : Rat} {c c1 c2 : Comp XRat D} {n n' s} (h1 : Loop m (.fin q) c n c1 s)
    (hq : q ≤ q') (h2 : Loop m (.fin q') c1 n' c2 .OK) : s = .OK → Loop m (.fin q') c (n + n') c2 .OK := by
  induction h1 with
  | @done c hr =>
    intro _
    have := h2.wn c.nextCommunicationPoint rfl
    rw [Nat.zero_add]
    exact this
  | @step c c0 n c' s hr e ht _ ih =>
    intro hs
    rw [Nat.add_right_comm]
    exact .step (Bool.eq_false_iff.2 fun h => by rw [reached_mono hq h] at hr; cases hr) e ht (ih h2 hs)
  | discard => intro h; cases h
  | error => intro h; cases h

theorem Loop.split {q q' : Rat} {c c2 : Comp XRat D} {n s} (h : Loop m (.fin q') c n c2 s) (hq : q ≤ q') :
    s = .OK → ∃ n1 n2 c1, n1 + n2 = n ∧ Loop m (.fin q) c n1 c1 .OK ∧ Loop m (.fin q') c1 n2 c2 .OK := by
  induction h with
  | @done c hr => exact fun _ => ⟨0, 0, _, rfl, .done (reached_mono hq hr), .done (c := c.wn (.fin q)) hr⟩
  | @step c c0 n c' s hr e ht h ih =>
    intro hs
    subst hs
    cases hr' : Verif.reached m (.fin q) c with
    | true =>
      exact ⟨0, n + 1, _, by omega, .done hr', (Loop.step hr e ht h).wn (.fin q) rfl⟩
    | false =>
      obtain ⟨n1, n2, c1, h0, h1, h2⟩ := ih rfl
      exact ⟨n1 + 1, n2, c1, by omega, .step hr' e ht h1, h2⟩
  | discard => intro h; cases h
  | error => intro h; cases h

end FMI2

namespace FMI3

theorem Loop.join {q q' : Rat} {c c1 c2 : Comp XRat D} {ehn n n' s e r e' r'} (h1 : Loop m (.fin q) c ehn n c1 s e r)
    (hq : q ≤ q') (h2 : Loop m (.fin q') c1 e n' c2 .OK e' r') :
    s = .OK → r = true → Loop m (.fin q') c ehn (n + n') c2 .OK e' r' := by
  induction h1 with
  | @done c ehn hr => intro _ _; simpa using h2
  | @step c ehn c0 ehn1 n c' s e r hr e1 _ ih =>
    intro hs hr'
    rw [Nat.add_right_comm]
    refine .step ?_ e1 (ih h2 hs hr')
    rw [Bool.or_eq_false_iff] at hr ⊢
    exact ⟨Bool.eq_false_iff.2 fun h => Bool.false_ne_true (hr.1.symm.trans (reached_mono hq h)), hr.2⟩
  | leave => intro _ h; cases h
  | error => intro h; cases h

/-- Without event mode no event remains to be handled. -/
theorem iter_noEventMode (hm : OkOrError m) {c c' : Comp XRat D} {s o} (he : c.eventModeUsed = false)
    (h : iter m c false = .ret (c', s, o)) (hs : s = .OK) : o.1 = false ∧ c'.eventModeUsed = false := by
  subst hs
  refine ⟨?_, (iter_frame hm h).emu.trans he⟩
  rcases iter_eq_ret hm h with ⟨-, c0, e0, c1, se, te, hp, e1, h⟩ | ⟨h, -⟩
  · have f := (pendingEvent_frame hp).advance.trans (Frame.fixedStep e1)
    have h0 : e0 = false := by
      unfold pendingEvent at hp
      split at hp
      · cases hp; rfl
      · simp only [Bool.false_eq_true, if_false] at hp; cases hp; rfl
    subst h0
    rcases h with ⟨-, -, rfl⟩ | ⟨-, -, h, -⟩ | ⟨_, -, -, -, -, rfl⟩
    · rfl
    · rw [f.emu.trans he] at h; cases h
    · rfl
  · cases h

theorem iter_stay (hm : OkOrError m) {c c' : Comp XRat D} {ehn e} (h : iter m c ehn = .ret (c', .OK, (e, false))) :
    c'.mv.terminateSimulation = false := by
  rcases iter_eq_ret hm h with ⟨-, c0, e0, c1, se, te, hp, e1, h⟩ | ⟨h, -⟩
  · rcases h with ⟨-, rfl, h⟩ | ⟨-, -, -, rfl, h⟩ | ⟨_, -, -, -, -, h⟩
    · exact (Prod.mk.inj h).2.symm
    · have := (Bool.or_eq_false_iff.1 (Prod.mk.inj h).2.symm).2; assumption
    · have := (Bool.or_eq_false_iff.1 (Prod.mk.inj h).2.symm).2; assumption
  · cases h

theorem Loop.notTerminated (hm : OkOrError m) {q : XRat} {c c2 : Comp XRat D} {ehn n s e r}
    (h : Loop m q c ehn n c2 s e r) : c.mv.terminateSimulation = false → s = .OK → r = true →
    c2.mv.terminateSimulation = false := by
  induction h with
  | done => exact fun h _ _ => h
  | step hr e1 _ ih => exact fun _ => ih (iter_stay hm e1)
  | leave => intro _ _ h; cases h
  | error => intro _ h; cases h

theorem Loop.state (hm : OkOrError m) {q : XRat} {c c2 : Comp XRat D} {ehn n s e r}
    (h : Loop m q c ehn n c2 s e r) : s = .OK → c2.ctx.state = c.ctx.state := by
  induction h with
  | done => exact fun _ => rfl
  | step hr e1 _ ih => exact fun hs => (ih hs).trans (by rw [(iter_frame hm e1).ctx]; rfl)
  | leave hr e1 => exact fun _ => by rw [(iter_frame hm e1).ctx]; rfl
  | error => intro h; cases h

theorem Loop.split (hm : OkOrError m) {q q' : Rat} {c c2 : Comp XRat D} {ehn n s e r}
    (h : Loop m (.fin q') c ehn n c2 s e r) (hq : q ≤ q') :
    c.eventModeUsed = false → ehn = false → s = .OK → r = true →
    ∃ n1 n2 c1, n1 + n2 = n ∧ Loop m (.fin q) c false n1 c1 .OK false true ∧
      Loop m (.fin q') c1 false n2 c2 .OK e true ∧ c1.eventModeUsed = false := by
  induction h with
  | @done c ehn hr =>
    intro he hehn _ hr'
    subst hehn
    have h1 := reached_mono hq hr'
    refine ⟨0, 0, c, rfl, ?_, ?_, he⟩
    · have := Loop.done (m := m) (next := .fin q) (c := c) (ehn := false) (by simp [h1])
      rwa [h1] at this
    · have := Loop.done (m := m) (next := .fin q') (c := c) (ehn := false) (by simp [hr'])
      rwa [hr'] at this
  | @step c ehn c0 ehn1 n c' s e r hr e1 h ih =>
    intro he hehn hs hr'
    subst hehn hs hr'
    obtain ⟨h1, h2⟩ := iter_noEventMode hm he e1 rfl
    cases h1
    cases hq' : Verif.reached m (.fin q) c with
    | true =>
      refine ⟨0, n + 1, c, by omega, ?_, .step hr e1 h, he⟩
      have := Loop.done (m := m) (next := .fin q) (c := c) (ehn := false) (by simp [hq'])
      rwa [hq'] at this
    | false =>
      obtain ⟨n1, n2, c1, h0, h3, h4, h5⟩ := ih h2 rfl rfl rfl
      exact ⟨n1 + 1, n2, c1, by omega, .step (by simp [hq']) e1 h3, h4, h5⟩
  | leave => intro _ _ _ h; cases h
  | error => intro _ _ h; cases h

end FMI3
end
end Verif
