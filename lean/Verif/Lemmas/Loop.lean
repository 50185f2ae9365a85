import Verif.Lemmas.Hist2
import Verif.Lemmas.Hist3

/-!
# The solver step and the two `DoStep` loops

What one solver step leaves unchanged (`Frame`), and unfolding rules for the loops in which the local
`status` has disappeared.
-/

set_option linter.unusedSectionVars false

namespace Verif
variable {F D : Type} {m : Model F D}

/-- `c'` differs from `c` at most in what the FMU may write and in the solver arrays. -/
def Frame (c c' : Comp F D) : Prop :=
  c' = { c with mv := c'.mv, x := c'.x, dx := c'.dx, z := c'.z, prez := c'.prez }

namespace Frame
variable {c c' c'' : Comp F D}
theorem refl (c : Comp F D) : Frame c c := rfl
theorem ctx (h : Frame c c') : c'.ctx = c.ctx := by
  have := congrArg Comp.ctx h; exact this
theorem startTime (h : Frame c c') : c'.startTime = c.startTime := by
  have := congrArg Comp.startTime h; exact this
theorem stopTime (h : Frame c c') : c'.stopTime = c.stopTime := by
  have := congrArg Comp.stopTime h; exact this
theorem ncp (h : Frame c c') : c'.nextCommunicationPoint = c.nextCommunicationPoint := by
  have := congrArg Comp.nextCommunicationPoint h; exact this
theorem nSteps (h : Frame c c') : c'.nSteps = c.nSteps := by
  have := congrArg Comp.nSteps h; exact this
theorem era (h : Frame c c') : c'.earlyReturnAllowed = c.earlyReturnAllowed := by
  have := congrArg Comp.earlyReturnAllowed h; exact this
theorem emu (h : Frame c c') : c'.eventModeUsed = c.eventModeUsed := by
  have := congrArg Comp.eventModeUsed h; exact this
theorem iu (h : Frame c c') : c'.intermediateUpdate = c.intermediateUpdate := by
  have := congrArg Comp.intermediateUpdate h; exact this
theorem nx (h : Frame c c') : c'.nx = c.nx := by
  have := congrArg Comp.nx h; exact this
theorem nz (h : Frame c c') : c'.nz = c.nz := by
  have := congrArg Comp.nz h; exact this
theorem trans (h : Frame c c') (h' : Frame c' c'') : Frame c c'' := by
  have : ({ c' with mv := c''.mv, x := c''.x, dx := c''.dx, z := c''.z, prez := c''.prez } : Comp F D) =
      { c with mv := c''.mv, x := c''.x, dx := c''.dx, z := c''.z, prez := c''.prez } := by
    rw [h]
  exact Eq.trans h' this
theorem mk (c : Comp F D) (mv x dx z prez) :
    Frame c { c with mv := mv, x := x, dx := dx, z := z, prez := prez } := rfl
end Frame

theorem Frame.lift {β : Type} {c c' : Comp F D} {r : MRes F D β} {s b}
    (h : c.lift r = .ret (c', s, b)) : Frame c c' := by
  obtain ⟨⟨mv, s', b'⟩, -, h⟩ := Outcome.bind_eq_ret.1 h
  cases h
  rfl

theorem lift_eq_ret {β : Type} {c c' : Comp F D} {r : MRes F D β} {s b} :
    c.lift r = .ret (c', s, b) ↔ ∃ mv, r = .ret (mv, s, b) ∧ c' = { c with mv := mv } := by
  unfold Comp.lift
  rw [Outcome.bind_eq_ret]
  constructor
  · rintro ⟨⟨mv, s', b'⟩, h1, h2⟩
    cases h2
    exact ⟨mv, h1, rfl⟩
  · rintro ⟨mv, h1, rfl⟩
    exact ⟨_, h1, rfl⟩

/-- Both outcomes of the `CALL` macro of cosimulation.c. -/
theorem callCo_eq_ret {α β : Type} {r : Res F D α} {stop : β} {k : Comp F D → α → Res F D β} {x} :
    callCo r stop k = .ret x ↔
      (∃ c a, r = .ret (c, .OK, a) ∧ k c a = .ret x) ∨
      ∃ c s a, r = .ret (c, s, a) ∧ s ≠ .OK ∧ x = (c, s, stop) := by
  unfold callCo
  rw [Outcome.bind_eq_ret]
  constructor
  · rintro ⟨⟨c, s, a⟩, h1, h2⟩
    by_cases hs : s = .OK
    · subst hs
      exact .inl ⟨c, a, h1, by simpa using h2⟩
    · simp [hs] at h2
      exact .inr ⟨c, s, a, h1, hs, h2.symm⟩
  · rintro (⟨c, a, h1, h2⟩ | ⟨c, s, a, h1, h2, h3⟩)
    · exact ⟨_, h1, by simpa using h2⟩
    · exact ⟨_, h1, by simp [h2, h3]⟩

section
variable [Arith F]

theorem Frame.eulerStep {c c' : Comp F D} {s b} (h : eulerStep m c = .ret (c', s, b)) :
    Frame c c' := by
  unfold Verif.eulerStep at h
  split at h
  · rcases callCo_eq_ret.1 h with ⟨c1, x, e1, h⟩ | ⟨c1, s1, a, e1, -, h⟩
    · obtain ⟨mv1, -, rfl⟩ := lift_eq_ret.1 e1
      rcases callCo_eq_ret.1 h with ⟨c2, dx, e2, h⟩ | ⟨c2, s2, a, e2, -, h⟩
      · obtain ⟨mv2, -, rfl⟩ := lift_eq_ret.1 e2
        rcases callCo_eq_ret.1 h with ⟨c3, y, e3, h⟩ | ⟨c3, s3, a, e3, -, h⟩
        · obtain ⟨mv3, -, rfl⟩ := lift_eq_ret.1 e3
          cases h; rfl
        · obtain ⟨mv3, -, rfl⟩ := lift_eq_ret.1 e3
          cases h; rfl
      · obtain ⟨mv2, -, rfl⟩ := lift_eq_ret.1 e2
        cases h; rfl
    · obtain ⟨mv1, -, rfl⟩ := lift_eq_ret.1 e1
      cases h; rfl
  · cases h; rfl

theorem Frame.detect {c c' : Comp F D} {s b} (h : detectStateEvent m c = .ret (c', s, b)) :
    Frame c c' := by
  unfold detectStateEvent at h
  split at h
  · rcases callCo_eq_ret.1 h with ⟨c1, x, e1, h⟩ | ⟨c1, s1, a, e1, -, h⟩
    · obtain ⟨mv1, -, rfl⟩ := lift_eq_ret.1 e1
      cases h; rfl
    · obtain ⟨mv1, -, rfl⟩ := lift_eq_ret.1 e1
      cases h; rfl
  · cases h; rfl

theorem eulerStep_status (hm : OkOrError m) {c c' : Comp F D} {s b}
    (h : eulerStep m c = .ret (c', s, b)) : s = .OK ∨ s = .Error := by
  unfold eulerStep at h
  split at h
  · rcases callCo_eq_ret.1 h with ⟨c1, x, e1, h⟩ | ⟨c1, s1, a, e1, -, h⟩
    · rcases callCo_eq_ret.1 h with ⟨c2, dx, e2, h⟩ | ⟨c2, s2, a, e2, -, h⟩
      · rcases callCo_eq_ret.1 h with ⟨c3, y, e3, h⟩ | ⟨c3, s3, a, e3, -, h⟩
        · cases h; exact .inl rfl
        · obtain ⟨mv3, e, -⟩ := lift_eq_ret.1 e3
          cases h; exact hm _ _ _ _ _ (.setStates e)
      · obtain ⟨mv3, e, -⟩ := lift_eq_ret.1 e2
        cases h; exact hm _ _ _ _ _ (.deriv e)
    · obtain ⟨mv3, e, -⟩ := lift_eq_ret.1 e1
      cases h; exact hm _ _ _ _ _ (.getStates e)
  · cases h; exact .inl rfl

theorem detect_status (hm : OkOrError m) {c c' : Comp F D} {s b}
    (h : detectStateEvent m c = .ret (c', s, b)) : s = .OK ∨ s = .Error := by
  unfold detectStateEvent at h
  split at h
  · rcases callCo_eq_ret.1 h with ⟨c1, x, e1, h⟩ | ⟨c1, s1, a, e1, -, h⟩
    · cases h; exact .inl rfl
    · obtain ⟨mv3, e, -⟩ := lift_eq_ret.1 e1
      cases h; exact hm _ _ _ _ _ (.indicators e)
  · cases h; exact .inl rfl

/-- The intermediate update callback of a solver step. -/
def Comp.notify (c : Comp F D) : Comp F D :=
  if c.intermediateUpdate then
    { c with mv := { c.mv with trace := c.mv.trace ++ [.intermediateUpdate c.ctx.time] } }
  else c

theorem Frame.notify (c : Comp F D) : Frame c c.notify := by
  unfold Comp.notify; split <;> rfl

/-- A solver step that returned: what it did. -/
theorem doFixedStep_eq_ret {c c' : Comp F D} {s ev} (h : doFixedStep m c = .ret (c', s, ev)) :
    (∃ c1 c2 se, eulerStep m c = .ret (c1, .OK, ()) ∧
      detectStateEvent m (advanceTime m c1) = .ret (c2, .OK, se) ∧
      s = .OK ∧ c' = c2.notify ∧
      ev = some (se, c2.mv.nextEventTimeDefined && (c2.mv.nextEventTime <=. c2.ctx.time))) ∨
    (ev = none ∧ s ≠ .OK ∧ eulerStep m c = .ret (c', s, ())) ∨
    (ev = none ∧ s ≠ .OK ∧ ∃ c1 se, eulerStep m c = .ret (c1, .OK, ()) ∧
      detectStateEvent m (advanceTime m c1) = .ret (c', s, se)) := by
  unfold doFixedStep at h
  rcases callCo_eq_ret.1 h with ⟨c1, x, e1, h⟩ | ⟨c1, s1, a, e1, hs, h⟩
  · rcases callCo_eq_ret.1 h with ⟨c2, x, e2, h⟩ | ⟨c2, s2, a, e2, hs, h⟩
    · cases h
      exact .inl ⟨c1, c2, x, e1, e2, rfl, rfl, rfl⟩
    · cases h
      exact .inr (.inr ⟨rfl, hs, c1, a, e1, e2⟩)
  · cases h
    exact .inr (.inl ⟨rfl, hs, e1⟩)

theorem doFixedStep_status (hm : OkOrError m) {c c' : Comp F D} {s ev}
    (h : doFixedStep m c = .ret (c', s, ev)) : s = .OK ∧ ev.isSome ∨ s = .Error ∧ ev = none := by
  rcases doFixedStep_eq_ret h with ⟨c1, c2, se, -, -, rfl, -, rfl⟩ | ⟨rfl, hs, e⟩ | ⟨rfl, hs, _, _, -, e⟩
  · simp
  · have := eulerStep_status hm e; simp_all
  · have := detect_status hm e; simp_all

theorem Frame.advance {c c' : Comp F D} (h : Frame c c') :
    Frame (advanceTime m c) (advanceTime m c') := by
  unfold Frame at *
  rw [h]
  rfl

/-- A successful solver step advances time by one step and changes otherwise only what the FMU may
write. -/
theorem Frame.fixedStep {c c' : Comp F D} {ev} (h : doFixedStep m c = .ret (c', .OK, ev)) :
    Frame (advanceTime m c) c' := by
  rcases doFixedStep_eq_ret h with ⟨c1, c2, se, e1, e2, -, rfl, -⟩ | ⟨_, hs, -⟩ | ⟨_, hs, -⟩
  · exact ((Frame.eulerStep e1).advance.trans (Frame.detect e2)).trans (Frame.notify _)
  · exact absurd rfl hs
  · exact absurd rfl hs

/-- Also a failed one. -/
theorem Frame.fixedStep' {c c' : Comp F D} {s ev} (h : doFixedStep m c = .ret (c', s, ev)) :
    Frame (advanceTime m c) c' ∨ Frame c c' := by
  rcases doFixedStep_eq_ret h with ⟨c1, c2, se, e1, e2, rfl, rfl, -⟩ | ⟨_, hs, e⟩ | ⟨_, hs, _, _, e1, e⟩
  · exact .inl (((Frame.eulerStep e1).advance.trans (Frame.detect e2)).trans (Frame.notify _))
  · exact .inr (Frame.eulerStep e)
  · exact .inl ((Frame.eulerStep e1).advance.trans (Frame.detect e))

/-- The end of a communication step is reached, src/fmi2Functions.c 529 and src/fmi3Functions.c
1235. -/
def reached (m : Model F D) (next : F) (c : Comp F D) : Bool :=
  next <. (c.ctx.time +. m.h) && !isClose (c.ctx.time +. m.h) next

end

namespace FMI2
variable [Arith F]

/-- One iteration of the loop of `fmi2DoStep` behind the test for the end. -/
def iter (m : Model F D) (c : Comp F D) : Res F D Unit :=
  call .OK (doFixedStep m c) (fun _ => ()) fun c st ev =>
  handleEvents m c st ev () fun c st => .ret (c, st, ())

/-- A status other than `OK` and `Error` does not occur. -/
theorem iter_cases (hm : OkOrError m) (c : Comp F D) {k : Comp F D → Status → Res F D Unit} :
    (call .OK (doFixedStep m c) (fun _ => ()) fun c st ev => handleEvents m c st ev () k) =
      (iter m c >>- fun (c, s, _) => if s = .OK then k c .OK else .ret (c, s, ())) := by
  unfold iter call
  rw [Outcome.bind_assoc]
  cases e : doFixedStep m c with
  | ub => rfl
  | hang => rfl
  | ret x =>
    obtain ⟨c1, s, ev⟩ := x
    simp only [Outcome.ret_bind]
    rcases doFixedStep_status hm e with ⟨rfl, hev⟩ | ⟨rfl, rfl⟩
    · simp only [Status.rank, gt_iff_lt, Nat.lt_irrefl, if_false]
      unfold handleEvents
      cases he : m.eventUpdate with
      | none => rfl
      | some eu =>
        cases ev with
        | none => rfl
        | some p =>
          obtain ⟨se, te⟩ := p
          simp only
          split
          · unfold call
            rw [Outcome.bind_assoc]
            cases e2 : c1.lift (eu c1.ctx c1.mv) with
            | ub => rfl
            | hang => rfl
            | ret y =>
              obtain ⟨c2, s2, b⟩ := y
              obtain ⟨mv, e3, rfl⟩ := lift_eq_ret.1 e2
              rcases hm _ _ _ _ _ (.event he e3) with rfl | rfl
              · rfl
              · rfl
          · rfl
    · rfl

theorem doStepLoop_succ (hm : OkOrError m) (next : F) (fuel : Nat) (c : Comp F D) :
    doStepLoop m next (fuel + 1) c .OK =
      if reached m next c then .ret ({ c with nextCommunicationPoint := next }, .OK, ())
      else iter m c >>- fun (c, s, _) =>
        if s = .OK then
          if c.mv.terminateSimulation then .ret (c, .Discard, ()) else doStepLoop m next fuel c .OK
        else .ret (c, s, ()) := by
  have := iter_cases hm c (k := fun c st =>
    if c.mv.terminateSimulation then .ret (c, .Discard, ()) else doStepLoop m next fuel c st)
  simp only at this
  rw [doStepLoop, ← this]
  rfl

/-- What an iteration does. -/
theorem iter_eq_ret (hm : OkOrError m) {c c' : Comp F D} {s b} (h : iter m c = .ret (c', s, b)) :
    (s = .OK ∧ ∃ c1 se te, doFixedStep m c = .ret (c1, .OK, some (se, te)) ∧
      (c' = c1 ∧ (m.eventUpdate = none ∨ (se || te) = false) ∨
        ∃ eu, m.eventUpdate = some eu ∧ (se || te) = true ∧
          c1.lift (eu c1.ctx c1.mv) = .ret (c', .OK, ()))) ∨
    (s = .Error ∧ ∃ c1, c' = c1.setState .terminated ∧
      (Frame c c1 ∨ Frame (advanceTime m c) c1)) := by
  unfold iter call at h
  obtain ⟨⟨c1, s1, ev⟩, e1, h⟩ := Outcome.bind_eq_ret.1 h
  rcases doFixedStep_status hm e1 with ⟨rfl, hev⟩ | ⟨rfl, rfl⟩
  · obtain ⟨⟨se, te⟩, rfl⟩ := Option.isSome_iff_exists.1 hev
    simp only [Status.rank, gt_iff_lt, Nat.lt_irrefl, if_false] at h
    unfold handleEvents at h
    cases he : m.eventUpdate with
    | none =>
      rw [he] at h
      cases h
      exact .inl ⟨rfl, _, se, te, e1, .inl ⟨rfl, .inl rfl⟩⟩
    | some eu =>
      rw [he] at h
      simp only at h
      split at h
      · next hse =>
        unfold call at h
        obtain ⟨⟨c2, s2, u⟩, e2, h⟩ := Outcome.bind_eq_ret.1 h
        obtain ⟨mv, e3, rfl⟩ := lift_eq_ret.1 e2
        rcases hm _ _ _ _ _ (.event he e3) with rfl | rfl
        · cases h
          exact .inl ⟨rfl, _, se, te, e1, .inr ⟨eu, rfl, hse, e2⟩⟩
        · simp only [Status.rank] at h
          cases h
          exact .inr ⟨rfl, _, rfl, .inr ((Frame.fixedStep e1).trans (Frame.lift e2))⟩
      · next hse =>
        cases h
        exact .inl ⟨rfl, _, se, te, e1, .inl ⟨rfl, .inr (by simpa using hse)⟩⟩
  · cases h
    exact .inr ⟨rfl, c1, rfl, (Frame.fixedStep' e1).symm⟩

theorem iter_frame (hm : OkOrError m) {c c' : Comp F D} {b} (h : iter m c = .ret (c', .OK, b)) :
    Frame (advanceTime m c) c' := by
  rcases iter_eq_ret hm h with ⟨-, c1, se, te, e1, ⟨rfl, -⟩ | ⟨eu, -, -, e2⟩⟩ | ⟨h, -⟩
  · exact Frame.fixedStep e1
  · exact (Frame.fixedStep e1).trans (Frame.lift e2)
  · cases h

/-- The loop of `fmi2DoStep` from `c` makes `n` solver steps and ends in `c'` with status `s`. -/
inductive Loop (m : Model F D) (next : F) : Comp F D → Nat → Comp F D → Status → Prop
  | done {c} : reached m next c = true → Loop m next c 0 { c with nextCommunicationPoint := next } .OK
  | step {c c1 n c' s} : reached m next c = false → iter m c = .ret (c1, .OK, ()) →
      c1.mv.terminateSimulation = false → Loop m next c1 n c' s → Loop m next c (n + 1) c' s
  | discard {c c1} : reached m next c = false → iter m c = .ret (c1, .OK, ()) →
      c1.mv.terminateSimulation = true → Loop m next c 1 c1 .Discard
  | error {c c1} : reached m next c = false → iter m c = .ret (c1, .Error, ()) →
      Loop m next c 1 c1 .Error

theorem Loop.of_eq (hm : OkOrError m) {next : F} : ∀ {fuel : Nat} {c c' : Comp F D} {s : Status} {b},
    doStepLoop m next fuel c .OK = .ret (c', s, b) → ∃ n, n ≤ fuel ∧ Loop m next c n c' s := by
  intro fuel
  induction fuel with
  | zero => intro c c' s b h; cases h
  | succ fuel ih =>
    intro c c' s b h
    rw [doStepLoop_succ hm] at h
    split at h
    · next hr => cases h; exact ⟨0, Nat.zero_le _, .done hr⟩
    · next hr =>
      rw [Bool.not_eq_true] at hr
      obtain ⟨⟨c1, s1, u⟩, e1, h⟩ := Outcome.bind_eq_ret.1 h
      rcases iter_eq_ret hm e1 with ⟨rfl, -⟩ | ⟨rfl, -⟩
      · simp only [if_true] at h
        split at h
        · next ht => cases h; exact ⟨1, by omega, .discard hr e1 ht⟩
        · next ht =>
          obtain ⟨n, hn, hl⟩ := ih h
          exact ⟨n + 1, by omega, .step hr e1 (by simpa using ht) hl⟩
      · cases h; exact ⟨1, by omega, .error hr e1⟩

theorem Loop.eq (hm : OkOrError m) {next : F} {c c' : Comp F D} {n : Nat} {s : Status}
    (h : Loop m next c n c' s) : ∀ {fuel}, n < fuel →
    doStepLoop m next fuel c .OK = .ret (c', s, ()) := by
  induction h with
  | done hr => intro fuel hf; cases fuel with
    | zero => omega
    | succ fuel => rw [doStepLoop_succ hm, if_pos hr]
  | step hr e ht _ ih => intro fuel hf; cases fuel with
    | zero => omega
    | succ fuel =>
      rw [doStepLoop_succ hm, if_neg (by simp [hr]), e]
      simp [ht, ih (by omega : _ < fuel)]
  | discard hr e ht => intro fuel hf; cases fuel with
    | zero => omega
    | succ fuel =>
      rw [doStepLoop_succ hm, if_neg (by simp [hr]), e]
      simp [ht]
  | error hr e => intro fuel hf; cases fuel with
    | zero => omega
    | succ fuel =>
      rw [doStepLoop_succ hm, if_neg (by simp [hr]), e]
      simp

end FMI2

namespace FMI3
variable [Arith F]

/-- One iteration of the loop of `fmi3DoStep` behind the test for the end. The output is the new
`*eventHandlingNeeded` and whether the loop is left. -/
def iter (m : Model F D) (c : Comp F D) (ehn : Bool) : Res F D (Bool × Bool) :=
  pendingEvent m c ehn >>- fun (c, ehn) =>
  call .OK (doFixedStep m c) (fun _ => (ehn, false)) fun c st ev =>
  let rest (c : Comp F D) (st : Status) (ehn : Bool) : Res F D (Bool × Bool) :=
    .ret (c, st, (ehn, c.mv.terminateSimulation))
  match m.eventUpdate with
  | none => rest c st ehn
  | some eu =>
    match ev with
    | none => .ub
    | some (stateEvent, timeEvent) =>
      if stateEvent || timeEvent then
        let early (c : Comp F D) (st : Status) (ehn : Bool) : Res F D (Bool × Bool) :=
          if c.earlyReturnAllowed then .ret (c, st, (ehn, true)) else rest c st ehn
        if c.eventModeUsed then early c st true
        else internalEvent m eu c st (ehn, false) fun c st => early c st ehn
      else rest c st ehn

/-- The outputs of `fmi3DoStep` when the loop fails. -/
def stopOut (out : StepOut F) (ehn : Bool) : StepOut F :=
  { out with eventHandlingNeeded := some ehn, terminateSimulation := some false,
             earlyReturn := some false }

theorem internalEvent_ok (hm : OkOrError m) {β : Type} {eu} (he : m.eventUpdate = some eu)
    {c : Comp F D} {stop : β} {k : Comp F D → Status → Res F D β} :
    internalEvent m eu c .OK stop k =
      (internalEvent m eu c .OK () (fun c st => .ret (c, st, ())) >>- fun (c, s, _) =>
        if s = .OK then k c .OK else .ret (c, s, stop)) := by
  unfold internalEvent call
  rw [Outcome.bind_assoc]
  cases e2 : c.lift (eu c.ctx c.mv) with
  | ub => rfl
  | hang => rfl
  | ret y =>
    obtain ⟨c2, s2, b⟩ := y
    obtain ⟨mv, e3, rfl⟩ := lift_eq_ret.1 e2
    rcases hm _ _ _ _ _ (.event he e3) with rfl | rfl
    · simp only [Outcome.ret_bind, Status.rank, gt_iff_lt, Nat.lt_irrefl, if_false]
      split
      · rw [Outcome.bind_assoc]
        cases e4 : Comp.lift { c with mv := mv } (m.getEventIndicators c.ctx mv (some c.prez) c.nz) with
        | ub => rfl
        | hang => rfl
        | ret y =>
          obtain ⟨c2, s2, b⟩ := y
          obtain ⟨mv2, e5, rfl⟩ := lift_eq_ret.1 e4
          rcases hm _ _ _ _ _ (.indicators e5) with rfl | rfl
          · rfl
          · rfl
      · rfl
    · rfl

/-- What the internal handling of an event does. -/
theorem internalEvent_eq_ret (hm : OkOrError m) {eu} (he : m.eventUpdate = some eu)
    {c c' : Comp F D} {s}
    (h : internalEvent m eu c .OK () (fun c st => .ret (c, st, ())) = .ret (c', s, ())) :
    (s = .OK ∧ ∃ c1, c.lift (eu c.ctx c.mv) = .ret (c1, .OK, ()) ∧
      (m.maxNZ = 0 ∧ c' = c1 ∨ m.maxNZ > 0 ∧ ∃ c2 p,
        c1.lift (m.getEventIndicators c1.ctx c1.mv (some c1.prez) c1.nz) = .ret (c2, .OK, p) ∧
        c' = { c2 with prez := p.getD c2.prez })) ∨
    (s = .Error ∧ ∃ c1, Frame c c1 ∧ c' = c1.setState .terminated) := by
  unfold internalEvent call at h
  obtain ⟨⟨c1, s1, b⟩, e1, h⟩ := Outcome.bind_eq_ret.1 h
  obtain ⟨mv, e3, rfl⟩ := lift_eq_ret.1 e1
  rcases hm _ _ _ _ _ (.event he e3) with rfl | rfl
  · simp only [Status.rank, gt_iff_lt, Nat.lt_irrefl, if_false] at h
    split at h
    · next hz =>
      obtain ⟨⟨c2, s2, p⟩, e2, h⟩ := Outcome.bind_eq_ret.1 h
      obtain ⟨mv2, e5, rfl⟩ := lift_eq_ret.1 e2
      rcases hm _ _ _ _ _ (.indicators e5) with rfl | rfl
      · cases h
        exact .inl ⟨rfl, _, e1, .inr ⟨hz, _, p, e2, rfl⟩⟩
      · cases h
        exact .inr ⟨rfl, _, by rfl, rfl⟩
    · next hz =>
      cases h
      exact .inl ⟨rfl, _, e1, .inl ⟨by simpa using hz, rfl⟩⟩
  · cases h
    exact .inr ⟨rfl, _, by rfl, rfl⟩

theorem doStepLoop_succ (hm : OkOrError m) (next : F) (out : StepOut F) (fuel : Nat) (c : Comp F D)
    (ehn : Bool) :
    doStepLoop m next out (fuel + 1) c .OK ehn =
      if reached m next c || (ehn && c.earlyReturnAllowed) then
        doStepEnd next out c .OK ehn (reached m next c)
      else iter m c ehn >>- fun (c, s, ehn, leave) =>
        if s = .OK then
          if leave then doStepEnd next out c .OK ehn false
          else doStepLoop m next out fuel c .OK ehn
        else .ret (c, s, stopOut out ehn) := by
  rw [doStepLoop]
  simp only
  change (if reached m next c || (ehn && c.earlyReturnAllowed) then _ else _) = _
  split
  · rfl
  · next hr =>
    have hr' : reached m next c = false := by
      cases h : reached m next c <;> simp_all
    unfold iter
    rw [Outcome.bind_assoc]
    cases ep : pendingEvent m c ehn with
    | ub => rfl
    | hang => rfl
    | ret x =>
    obtain ⟨c0, ehn⟩ := x
    simp only [Outcome.ret_bind]
    unfold call
    rw [Outcome.bind_assoc]
    cases e : doFixedStep m c0 with
    | ub => rfl
    | hang => rfl
    | ret x =>
      obtain ⟨c1, s, ev⟩ := x
      simp only [Outcome.ret_bind]
      change _ = _
      rcases doFixedStep_status hm e with ⟨rfl, hev⟩ | ⟨rfl, rfl⟩
      · simp only [Status.rank, gt_iff_lt, Nat.lt_irrefl, if_false]
        have hre : (next <. (c.ctx.time +. m.h) && !isClose (c.ctx.time +. m.h) next) = false := hr'
        rw [hre]
        have rest : ∀ (c1 : Comp F D) (ehn : Bool),
            (if c1.mv.terminateSimulation then doStepEnd next out c1 .OK ehn false
              else doStepLoop m next out fuel c1 .OK ehn) =
            ((.ret (c1, .OK, (ehn, c1.mv.terminateSimulation)) : Res F D (Bool × Bool)) >>-
              fun (c, s, ehn, leave) => if s = .OK then
                if leave then doStepEnd next out c .OK ehn false
                else doStepLoop m next out fuel c .OK ehn
              else .ret (c, s, stopOut out ehn)) := by
          intro c1 ehn; simp
        have early : ∀ (c1 : Comp F D) (ehn : Bool),
            (if c1.earlyReturnAllowed then doStepEnd next out c1 .OK ehn false else
              if c1.mv.terminateSimulation then doStepEnd next out c1 .OK ehn false
              else doStepLoop m next out fuel c1 .OK ehn) =
            ((if c1.earlyReturnAllowed then (.ret (c1, .OK, (ehn, true)) : Res F D (Bool × Bool))
                else .ret (c1, .OK, (ehn, c1.mv.terminateSimulation))) >>-
              fun (c, s, ehn, leave) => if s = .OK then
                if leave then doStepEnd next out c .OK ehn false
                else doStepLoop m next out fuel c .OK ehn
              else .ret (c, s, stopOut out ehn)) := by
          intro c1 ehn; cases c1.earlyReturnAllowed <;> simp
        cases he : m.eventUpdate with
        | none => exact rest _ _
        | some eu =>
          obtain ⟨⟨se, te⟩, rfl⟩ := Option.isSome_iff_exists.1 hev
          simp only
          split
          · split
            · exact early _ _
            · rw [internalEvent_ok hm he, internalEvent_ok hm he (stop := (ehn, false)),
                Outcome.bind_assoc]
              cases ei : internalEvent m eu c1 .OK () (fun c st => .ret (c, st, ())) with
              | ub => rfl
              | hang => rfl
              | ret x =>
                obtain ⟨c2, s2, u⟩ := x
                simp only [Outcome.ret_bind]
                rcases internalEvent_eq_ret hm he ei with ⟨rfl, -⟩ | ⟨rfl, -⟩
                · exact early _ _
                · rfl
          · exact rest _ _
      · rfl

/-- What an iteration does. -/
theorem iter_eq_ret (hm : OkOrError m) {c c' : Comp F D} {ehn s o}
    (h : iter m c ehn = .ret (c', s, o)) :
    (s = .OK ∧ ∃ c0 ehn0 c1 se te, pendingEvent m c ehn = .ret (c0, ehn0) ∧
      doFixedStep m c0 = .ret (c1, .OK, some (se, te)) ∧
      ((m.eventUpdate = none ∨ (se || te) = false) ∧ c' = c1 ∧
          o = (ehn0, c1.mv.terminateSimulation) ∨
        m.eventUpdate.isSome ∧ (se || te) = true ∧ c1.eventModeUsed = true ∧ c' = c1 ∧
          o = (true, c1.earlyReturnAllowed || c1.mv.terminateSimulation) ∨
        ∃ eu, m.eventUpdate = some eu ∧ (se || te) = true ∧ c1.eventModeUsed = false ∧
          internalEvent m eu c1 .OK () (fun c st => .ret (c, st, ())) = .ret (c', .OK, ()) ∧
          o = (ehn0, c'.earlyReturnAllowed || c'.mv.terminateSimulation))) ∨
    (s = .Error ∧ ∃ c1, c' = c1.setState .terminated ∧
      (Frame c c1 ∨ Frame (advanceTime m c) c1)) := by
  unfold iter at h
  obtain ⟨⟨c0, ehn0⟩, ep, h⟩ := Outcome.bind_eq_ret.1 h
  have f0 : Frame c c0 := by
    unfold pendingEvent at ep
    cases he : m.eventUpdate with
    | none => rw [he] at ep; cases ep; rfl
    | some eu =>
      rw [he] at ep
      simp only at ep
      split at ep
      · obtain ⟨⟨c1, s1, b⟩, e1, ep⟩ := Outcome.bind_eq_ret.1 ep
        cases ep
        exact Frame.lift e1
      · cases ep; rfl
  simp only at h
  unfold call at h
  obtain ⟨⟨c1, s1, ev⟩, e1, h⟩ := Outcome.bind_eq_ret.1 h
  rcases doFixedStep_status hm e1 with ⟨rfl, hev⟩ | ⟨rfl, rfl⟩
  · have f1 := f0.advance.trans (Frame.fixedStep e1)
    obtain ⟨⟨se, te⟩, rfl⟩ := Option.isSome_iff_exists.1 hev
    simp only [Status.rank, gt_iff_lt, Nat.lt_irrefl, if_false] at h
    cases he : m.eventUpdate with
    | none =>
      rw [he] at h
      cases h
      exact .inl ⟨rfl, c0, ehn0, _, se, te, ep, e1, .inl ⟨.inl rfl, rfl, rfl⟩⟩
    | some eu =>
      rw [he] at h
      simp only at h
      split at h
      · next hse =>
        split at h
        · next hem =>
          have : c' = c1 ∧ s = .OK ∧ o = (true, c1.earlyReturnAllowed || c1.mv.terminateSimulation) := by
            split at h
            · next he => cases h; simp [he]
            · next he => cases h; simp [he]
          obtain ⟨rfl, rfl, rfl⟩ := this
          exact .inl ⟨rfl, c0, ehn0, _, se, te, ep, e1, .inr (.inl ⟨rfl, hse, hem, rfl, rfl⟩)⟩
        · next hem =>
          rw [internalEvent_ok hm he] at h
          obtain ⟨⟨c2, s2, u⟩, ei, h⟩ := Outcome.bind_eq_ret.1 h
          rcases internalEvent_eq_ret hm he ei with ⟨rfl, -⟩ | ⟨rfl, c3, f, rfl⟩
          · have : c' = c2 ∧ s = .OK ∧
                o = (ehn0, c2.earlyReturnAllowed || c2.mv.terminateSimulation) := by
              simp only [if_true] at h
              split at h
              · next he => cases h; simp [he]
              · next he => cases h; simp [he]
            obtain ⟨rfl, rfl, rfl⟩ := this
            exact .inl ⟨rfl, c0, ehn0, _, se, te, ep, e1,
              .inr (.inr ⟨eu, rfl, hse, by simpa using hem, ei, rfl⟩)⟩
          · cases h
            exact .inr ⟨rfl, c3, rfl, .inr (f1.trans f)⟩
      · next hse =>
        cases h
        exact .inl ⟨rfl, c0, ehn0, _, se, te, ep, e1, .inl ⟨.inr (by simpa using hse), rfl, rfl⟩⟩
  · cases h
    refine .inr ⟨rfl, c1, rfl, ?_⟩
    rcases Frame.fixedStep' e1 with h | h
    · exact .inr (f0.advance.trans h)
    · exact .inl (f0.trans h)

theorem internalEvent_frame (hm : OkOrError m) {eu} (he : m.eventUpdate = some eu)
    {c c' : Comp F D}
    (h : internalEvent m eu c .OK () (fun c st => .ret (c, st, ())) = .ret (c', .OK, ())) :
    Frame c c' := by
  rcases internalEvent_eq_ret hm he h with ⟨-, c1, e1, ⟨-, rfl⟩ | ⟨-, c2, p, e2, rfl⟩⟩ | ⟨h, -⟩
  · exact Frame.lift e1
  · exact ((Frame.lift e1).trans (Frame.lift e2)).trans (by rfl)
  · cases h

theorem pendingEvent_frame {c c' : Comp F D} {ehn ehn'}
    (ep : pendingEvent m c ehn = .ret (c', ehn')) : Frame c c' := by
  unfold pendingEvent at ep
  cases he : m.eventUpdate with
  | none => rw [he] at ep; cases ep; rfl
  | some eu =>
    rw [he] at ep
    simp only at ep
    split at ep
    · obtain ⟨⟨c1, s1, b⟩, e1, ep⟩ := Outcome.bind_eq_ret.1 ep
      cases ep
      exact Frame.lift e1
    · cases ep; rfl

theorem iter_frame (hm : OkOrError m) {c c' : Comp F D} {ehn o}
    (h : iter m c ehn = .ret (c', .OK, o)) : Frame (advanceTime m c) c' := by
  rcases iter_eq_ret hm h with ⟨-, c0, ehn0, c1, se, te, ep, e1, h⟩ | ⟨h, -⟩
  · have f := (pendingEvent_frame ep).advance.trans (Frame.fixedStep e1)
    rcases h with ⟨-, rfl, -⟩ | ⟨-, -, -, rfl, -⟩ | ⟨eu, he, -, -, ei, -⟩
    · exact f
    · exact f
    · exact f.trans (internalEvent_frame hm he ei)
  · cases h

/-- The loop of `fmi3DoStep` from `c` makes `n` solver steps and ends in `c'` with status `s`, local
`*eventHandlingNeeded = e` and `nextCommunicationPointReached = r` (without the assignments behind the
loop). -/
inductive Loop (m : Model F D) (next : F) :
    Comp F D → Bool → Nat → Comp F D → Status → (e r : Bool) → Prop
  | done {c ehn} : (reached m next c || (ehn && c.earlyReturnAllowed)) = true →
      Loop m next c ehn 0 c .OK ehn (reached m next c)
  | step {c ehn c1 ehn1 n c' s e r} : (reached m next c || (ehn && c.earlyReturnAllowed)) = false →
      iter m c ehn = .ret (c1, .OK, (ehn1, false)) → Loop m next c1 ehn1 n c' s e r →
      Loop m next c ehn (n + 1) c' s e r
  | leave {c ehn c1 ehn1} : (reached m next c || (ehn && c.earlyReturnAllowed)) = false →
      iter m c ehn = .ret (c1, .OK, (ehn1, true)) → Loop m next c ehn 1 c1 .OK ehn1 false
  | error {c ehn c1 ehn1 b} : (reached m next c || (ehn && c.earlyReturnAllowed)) = false →
      iter m c ehn = .ret (c1, .Error, (ehn1, b)) → Loop m next c ehn 1 c1 .Error ehn1 false

/-- Instance and outputs behind the loop. -/
def finish (next : F) (out : StepOut F) (c : Comp F D) (s : Status) (e r : Bool) :
    Res F D (StepOut F) :=
  if s = .OK then doStepEnd next out c .OK e r else .ret (c, s, stopOut out e)

theorem Loop.of_eq (hm : OkOrError m) {next : F} {out : StepOut F} :
    ∀ {fuel : Nat} {c : Comp F D} {ehn : Bool} {x},
    doStepLoop m next out fuel c .OK ehn = .ret x →
    ∃ n c' s e r, n ≤ fuel ∧ Loop m next c ehn n c' s e r ∧ finish next out c' s e r = .ret x := by
  intro fuel
  induction fuel with
  | zero => intro c ehn x h; cases h
  | succ fuel ih =>
    intro c ehn x h
    rw [doStepLoop_succ hm] at h
    split at h
    · next hr => exact ⟨0, _, .OK, _, _, Nat.zero_le _, .done hr, by simpa [finish] using h⟩
    · next hr =>
      rw [Bool.not_eq_true] at hr
      obtain ⟨⟨c1, s1, ehn1, leave⟩, e1, h⟩ := Outcome.bind_eq_ret.1 h
      rcases iter_eq_ret hm e1 with ⟨rfl, -⟩ | ⟨rfl, -⟩
      · simp only [if_true] at h
        cases leave
        · obtain ⟨n, c', s, e, r, hn, hl, hf⟩ := ih (by simpa using h)
          exact ⟨n + 1, c', s, e, r, by omega, .step hr e1 hl, hf⟩
        · exact ⟨1, c1, .OK, ehn1, false, by omega, .leave hr e1, by simpa [finish] using h⟩
      · exact ⟨1, c1, .Error, ehn1, false, by omega, .error hr e1, by simpa [finish] using h⟩

theorem Loop.eq (hm : OkOrError m) {next : F} {out : StepOut F} {c c' : Comp F D} {ehn e r : Bool}
    {n : Nat} {s : Status} (h : Loop m next c ehn n c' s e r) : ∀ {fuel}, n < fuel →
    doStepLoop m next out fuel c .OK ehn = finish next out c' s e r := by
  induction h with
  | done hr => intro fuel hf; cases fuel with
    | zero => omega
    | succ fuel => rw [doStepLoop_succ hm, if_pos hr]; simp [finish]
  | step hr e _ ih => intro fuel hf; cases fuel with
    | zero => omega
    | succ fuel =>
      rw [doStepLoop_succ hm, if_neg (by simp only [hr]; decide), e]
      simp [ih (by omega : _ < fuel)]
  | leave hr e => intro fuel hf; cases fuel with
    | zero => omega
    | succ fuel =>
      rw [doStepLoop_succ hm, if_neg (by simp only [hr]; decide), e]
      simp [finish]
  | error hr e => intro fuel hf; cases fuel with
    | zero => omega
    | succ fuel =>
      rw [doStepLoop_succ hm, if_neg (by simp only [hr]; decide), e]
      simp [finish]

end FMI3
end Verif
