import Verif.Lemmas.Keep
import Verif.Lemmas.Reach3
import Verif.Lemmas.Vectors
import Verif.Lemmas.Shows
import Verif.Lemmas.XRatLaws
import Verif.Spec.EventInfo

/-! # Event updates: flags and continuous states -/

set_option linter.unusedSectionVars false

namespace Verif
variable {F D : Type} [Arith F] {m : Model F D}

/-- What an event update does to the flags, and to the states if it does not announce a change. -/
structure Model.Honest (m : Model F D) : Prop where
  nominals : ∀ {eu ctx mv mv' s b}, m.eventUpdate = some eu → eu ctx mv = .ret (mv', s, b) → mv.nominalsChanged = false →
    mv'.nominalsChanged = false
  states : ∀ {eu ctx mv mv' b}, m.eventUpdate = some eu → eu ctx mv = .ret (mv', .OK, b) → mv'.valuesChanged = false →
    ∀ ctx p n, (m.getContinuousStates ctx mv p n).shown = (m.getContinuousStates ctx mv' p n).shown

theorem writeN_shown {α β : Type} {W : Type} {p : Ptr α} {i : Nat} {l : List α} {a b : W} {f : Ptr α → β} :
    (writeN p i l >>- fun q => .ret (a, f q)).shown = (writeN p i l >>- fun q => .ret (b, f q)).shown := by
  cases writeN p i l <;> rfl

theorem vecStub_shown {ctx : Ctx F} {mv mv' : MV F D} {p n} : (vecStub ctx mv p n).shown = (vecStub ctx mv' p n).shown := by
  unfold vecStub assertSize failM
  split <;> rfl

theorem putVector_shown {ctx : Ctx F} {a b a' b' : MV F D} {p n l} :
    (putVector ctx a a' p n l).shown = (putVector ctx b b' p n l).shown := by
  unfold putVector assertNotNull assertSize failM
  split
  · rfl
  · split
    · rfl
    · exact writeN_shown

theorem writeN_fits {α : Type} : ∀ {vs : List α} {l : List α} {i : Nat} {q}, i ≤ l.length → writeN (some l) i vs = .ret q →
    i + vs.length ≤ l.length := by
  intro vs
  induction vs with
  | nil => intro l i q h _; simpa using h
  | cons v vs ih =>
    intro l i q h e
    simp only [writeN, Ptr.write] at e
    split at e
    · next hi =>
      have := ih (by simp; omega) e
      simp at this ⊢
      omega
    · cases e

theorem putVector_ok {ctx : Ctx F} {a b mv' : MV F D} {l : List F} {n : Nat} {vs : List F} {q}
    (e : putVector ctx a b (some l) n vs = .ret (mv', .OK, q)) : n = vs.length ∧ q = some (vs ++ l.drop n) := by
  simp only [putVector, assertNotNull, assertSize, failM, Option.isNone_some, Bool.false_eq_true, if_false] at e
  split at e
  · cases e
  · next hn =>
    have hn : n = vs.length := by simpa using hn
    refine ⟨hn, ?_⟩
    obtain ⟨p, e1, e2⟩ := Outcome.bind_eq_ret.1 e
    have h := writeN_fits (Nat.zero_le _) e1
    rw [writeN_eq _ _ _ h] at e1
    cases e1; cases e2
    rw [hn]
    simp

theorem vecStub_ok {ctx : Ctx F} {mv mv' : MV F D} {l : List F} {n : Nat} {q}
    (e : vecStub ctx mv (some l) n = .ret (mv', .OK, q)) : n = 0 ∧ q = some (l.drop n) := by
  simp only [vecStub, assertSize, failM] at e
  split at e
  · cases e
  · next hn =>
    have hn : n = 0 := by simpa using hn
    cases e
    subst hn
    exact ⟨rfl, rfl⟩

theorem callLast_ok {α β : Type} {c c' : Comp F D} {r : MRes F D α} {out : α → β} {b : β}
    (e : callLast (c.lift r) out = .ret (c', .OK, b)) : ∃ mv' a, r = .ret (mv', .OK, a) ∧ b = out a ∧ c' = { c with mv := mv' } := by
  obtain ⟨⟨c₁, s₁, a⟩, e1, e2⟩ := Outcome.bind_eq_ret.1 e
  obtain ⟨⟨mv', s', b'⟩, e3, e1⟩ := Outcome.bind_eq_ret.1 e1
  cases e1
  cases s₁ <;> cases e2
  exact ⟨_, _, e3, rfl, rfl⟩

theorem BouncingBall.honest : (BouncingBall.model : Model F (BouncingBall.Data F)).Honest where
  nominals h e _ := by cases h; cases e; rfl
  states h e hv ctx p n := by
    cases h; cases e
    simp only at hv
    split at hv
    · simp at hv
    · next hn =>
      simp only [BouncingBall.model]
      rw [if_neg hn]
      exact putVector_shown

theorem Stair.honest : (Stair.model : Model F Stair.Data).Honest where
  nominals h e hn := by
    cases h
    simp only [Stair.eventUpdate] at e
    obtain ⟨mv1, e1, e⟩ := Outcome.bind_eq_ret.1 e
    have h1 : mv1.nominalsChanged = false := by
      split at e1
      · split at e1
        · cases e1
        · cases e1; exact hn
      · cases e1; exact hn
    split at e
    · cases e
      unfold logError
      split <;> exact h1
    · cases e; rfl
  states h e _ ctx p n := vecStub_shown

theorem Feedthrough.honest (v : Bool) : (Feedthrough.model v : Model F (Feedthrough.Data F)).Honest where
  nominals h e hn := by cases h; cases e; rfl
  states h e _ ctx p n := vecStub_shown

theorem Clocks.honest : (Clocks.model : Model F (Clocks.Data F)).Honest where
  nominals h e hn := by cases h; cases e; exact hn
  states h e _ ctx p n := vecStub_shown

theorem StateSpace.honest : (StateSpace.model : Model F (StateSpace.Data F)).Honest where
  nominals h e hn := by cases h; cases e; rfl
  states h e _ ctx p n := by
    cases h; cases e
    simp only [StateSpace.model, assertNotNull, StateSpace.checkNx, StateSpace.guarded, failM]
    repeat' split
    all_goals first | rfl | exact writeN_shown

theorem Model.Honest.none (h : m.eventUpdate = none) : m.Honest where
  nominals h' := by rw [h] at h'; cases h'
  states h' := by rw [h] at h'; cases h'

theorem RefFMU2.honest (hm : RefFMU2 m) : m.Honest := by
  cases hm with
  | bouncingBall => exact BouncingBall.honest
  | dahlquist => exact .none rfl
  | vanDerPol => exact .none rfl
  | feedthrough => exact Feedthrough.honest _
  | resource => exact .none rfl
  | stair => exact Stair.honest

theorem RefFMU3.honest (hm : RefFMU3 m) : m.Honest := by
  cases hm with
  | bouncingBall => exact BouncingBall.honest
  | clocks => exact Clocks.honest
  | dahlquist => exact .none rfl
  | vanDerPol => exact .none rfl
  | feedthrough => exact Feedthrough.honest _
  | resource => exact .none rfl
  | roberts => exact .none rfl
  | stair => exact Stair.honest
  | stateSpace => exact StateSpace.honest

theorem nominals_inv (he : m.Eff) (hh : m.Honest)
    (hs : ∀ ctx mv, (m.setStartValues ctx mv).nominalsChanged = mv.nominalsChanged) :
    MVInv m fun mv => mv.nominalsChanged = false where
  step {f ctx mv mv' s} h e := by
    by_cases hf : f = .event
    · subst hf
      cases e with
      | event h' e => exact hh.nominals h' e h
    · exact ((he _ _ _ _ _ e).flags hf).2.1.trans h
  dirty _ h := h
  trace _ h := h
  start h := (hs _ _).trans h

/-- The flags of FMUs without time events. -/
theorem timeless_inv (he : m.Eff)
    (hu : ∀ {eu ctx mv mv' s b}, m.eventUpdate = some eu → eu ctx mv = .ret (mv', s, b) → mv.terminateSimulation = false ∧
      mv.nextEventTimeDefined = false → mv'.terminateSimulation = false ∧ mv'.nextEventTimeDefined = false)
    (hs : ∀ ctx mv, (m.setStartValues ctx mv).terminateSimulation = mv.terminateSimulation ∧
      (m.setStartValues ctx mv).nextEventTimeDefined = mv.nextEventTimeDefined) :
    MVInv m fun mv => mv.terminateSimulation = false ∧ mv.nextEventTimeDefined = false where
  step {f ctx mv mv' s} h e := by
    by_cases hf : f = .event
    · subst hf
      cases e with
      | event h' e => exact hu h' e h
    · have := (he _ _ _ _ _ e).flags hf
      exact ⟨this.1.trans h.1, this.2.2.2.1.trans h.2⟩
  dirty _ h := h
  trace _ h := h
  start h := ⟨(hs _ _).1.trans h.1, (hs _ _).2.trans h.2⟩

theorem FMI2.Timeless.ref (h : FMI2.Timeless m) : RefFMU2 m := by cases h <;> constructor
theorem FMI3.Timeless.ref (h : FMI3.Timeless m) : RefFMU3 m := by cases h <;> constructor

theorem FMI2.Timeless.inv (h : FMI2.Timeless m) : MVInv m fun mv => mv.terminateSimulation = false ∧ mv.nextEventTimeDefined = false := by
  refine timeless_inv h.ref.eff ?_ ?_
  · intro eu ctx mv mv' s b e1 e2 h0
    cases h <;> cases e1 <;> cases e2 <;> exact ⟨rfl, rfl⟩
  · intro ctx mv
    cases h <;> exact ⟨rfl, rfl⟩

theorem FMI3.Timeless.inv (h : FMI3.Timeless m) : MVInv m fun mv => mv.terminateSimulation = false ∧ mv.nextEventTimeDefined = false := by
  refine timeless_inv h.ref.eff ?_ ?_
  · intro eu ctx mv mv' s b e1 e2 h0
    cases h <;> cases e1 <;> cases e2 <;> first | exact ⟨rfl, rfl⟩ | exact h0
  · intro ctx mv
    cases h <;> exact ⟨rfl, rfl⟩

/-- The next event time of an instance. -/
def Announced (T : F) (c : Comp F D) : Prop := c.mv.nextEventTimeDefined = true ∧ c.mv.nextEventTime = T

theorem Announced.quiet (he : m.Eff) (T : F) : Quiet m (· ≠ .event) (Announced (D := D) T) where
  lift := by
    intro c f mv' s h hT e
    have := (he _ _ _ _ _ e).flags hT
    exact ⟨this.2.2.2.1.trans h.1, this.2.2.2.2.trans h.2⟩
  log msg h := by
    unfold Comp.logError logError
    split <;> exact h
  dirty b h := h

theorem Announced.flagClosed (T : F) : FlagClosed (Announced (D := D) T) := fun _ _ h => h

theorem FMI2.Announced.callInv (he : m.Eff) (T : F) :
    FMI2.CallInvX FMI2.Forgets (· ≠ .event) m (fun _ => True) (Announced T) :=
  { Verif.Announced.quiet he T with
    calls := by
      intro fn hX f hf
      cases fn <;> simp [Forgets, Fn.calls] at hX hf ⊢ <;>
        first | (subst hf; simp) | (rcases hf with rfl | rfl <;> simp)
    step := fun h => absurd (by simp [Forgets]) h
    nx := fun _ _ h => h
    nz := fun _ _ h => h
    prez := fun _ _ _ h => h
    term := fun h => h
    setup := fun _ _ _ _ h _ => h
    enterInit := fun _ _ h _ => h
    reset := fun h => absurd (by simp [Forgets]) h
    restore := fun h => absurd (by simp [Forgets]) h
    enterEvent := fun _ _ h _ => h
    enterCT := fun _ _ h _ => h
    setTime := fun _ _ _ h _ => h
    exitInit := fun _ _ h _ => h }

theorem FMI3.Announced.callInv (he : m.Eff) (T : F) :
    FMI3.CallInvX FMI3.Forgets (· ≠ .event) m (fun _ => True) (Announced T) :=
  { Verif.Announced.quiet he T with
    calls := by
      intro fn hX f hf
      cases fn <;> simp [Forgets, Fn.calls] at hX hf ⊢ <;>
        first | (subst hf; simp) | (rcases hf with rfl | rfl <;> simp)
    step := fun h => absurd (by simp [Forgets]) h
    nx := fun _ _ h => h
    nz := fun _ _ h => h
    prez := fun _ _ _ h => h
    term := fun h => h
    enterInit := fun _ _ _ _ h _ => h
    reset := fun h => absurd (by simp [Forgets]) h
    restore := fun h => absurd (by simp [Forgets]) h
    enterEvent := fun _ _ h _ => h
    enterCT := fun _ _ h _ => h
    setTime := fun _ _ _ h _ => h
    enterConfig := fun _ _ h _ => h
    exitConfig := fun _ _ h _ => h
    enterStep := fun _ _ h _ => h
    exitInit := fun _ _ h _ => h }

/-- A successful event update of Stair. -/
theorem Stair.updated {ctx : Ctx F} {mv mv' : MV F Stair.Data} {b} (e : Stair.eventUpdate ctx mv = .ret (mv', .OK, b)) :
    mv'.data.counter ≤ 10 ∧ mv'.terminateSimulation = decide (mv'.data.counter = 10) ∧ mv'.nextEventTimeDefined = true ∧
      if mv.nextEventTimeDefined = true ∧ isClose ctx.time mv.nextEventTime = true then
        mv'.data.counter = mv.data.counter + 1 ∧ mv'.nextEventTime = mv.nextEventTime +. Arith.lit 1
      else mv'.data.counter = mv.data.counter ∧ mv'.nextEventTime = mv.nextEventTime := by
  unfold Stair.eventUpdate at e
  obtain ⟨mv1, e1, e⟩ := Outcome.bind_eq_ret.1 e
  split at e
  · cases e
  · next hc =>
    cases e
    refine ⟨by simpa using hc, ?_, rfl, ?_⟩
    · simp only [decide_eq_decide]; omega
    · simp only [Bool.and_eq_true] at e1
      split at e1
      · split at e1
        · cases e1
        · next h _ => cases e1; rw [if_pos h]; exact ⟨rfl, rfl⟩
      · next h => cases e1; rw [if_neg h]; exact ⟨rfl, rfl⟩

/-- The next event time of Stair is a number. -/
theorem Stair.finite : MVInv (Stair.model : Model XRat Stair.Data) fun mv => ∃ q : Rat, mv.nextEventTime = .fin q where
  step {f ctx mv mv' s} h e := by
    by_cases hf : f = .event
    · subst hf
      obtain ⟨q, hq⟩ := h
      cases e with
      | event h' e =>
        cases h'
        unfold Stair.eventUpdate at e
        obtain ⟨mv1, e1, e⟩ := Outcome.bind_eq_ret.1 e
        have h1 : ∃ q : Rat, mv1.nextEventTime = .fin q := by
          split at e1
          · split at e1
            · cases e1
            · cases e1; exact ⟨q + 1, by rw [hq]; simp⟩
          · cases e1; exact ⟨q, hq⟩
        split at e
        · cases e
          unfold logError
          split <;> exact h1
        · cases e; exact h1
    · obtain ⟨q, hq⟩ := h
      exact ⟨q, (((RefFMU2.stair (F := XRat)).eff _ _ _ _ _ e).flags hf).2.2.2.2.trans hq⟩
  dirty _ h := h
  trace _ h := h
  start _ := ⟨1, rfl⟩

end Verif
