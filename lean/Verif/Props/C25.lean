import Verif.Lemmas.DoStep
import Verif.Lemmas.Expected
import Verif.Lemmas.TimeVar
import Verif.Lemmas.Reach3
import Verif.Examples

/-!
# C25: the results of `fmi3DoStep` are mutually consistent
-/

set_option linter.unusedSectionVars false

namespace Verif.FMI3
variable {F D : Type} [Arith F] [HasInf F] {m : Model F D}

theorem Loop.frameFlags (hm : OkOrError m) {next : F} {c c' : Comp F D} {ehn n e r}
    (h : Loop m next c ehn n c' .OK e r) : c'.earlyReturnAllowed = c.earlyReturnAllowed ∧
      c'.eventModeUsed = c.eventModeUsed := by
  generalize hs : Status.OK = s at h
  induction h with
  | done => exact ⟨rfl, rfl⟩
  | step hr e _ ih =>
    have := iter_frame hm e
    rw [(ih hs).1, (ih hs).2, this.era, this.emu]
    exact ⟨rfl, rfl⟩
  | leave hr e =>
    have := iter_frame hm e
    rw [this.era, this.emu]
    exact ⟨rfl, rfl⟩
  | error => cases hs

theorem pendingEvent_ehn {c c' : Comp F D} {ehn ehn' : Bool}
    (h : pendingEvent m c ehn = .ret (c', ehn')) (h' : ehn' = true) : ehn = true := by
  unfold pendingEvent at h
  split at h
  · cases h; exact h'
  · split at h
    · assumption
    · cases h; exact h'

/-- Event handling is requested only in Event Mode. -/
theorem iter_ehn (hm : OkOrError m) {c c' : Comp F D} {ehn ehn' l : Bool}
    (h : iter m c ehn = .ret (c', .OK, (ehn', l))) (h' : ehn' = true) :
    ehn = true ∨ c.eventModeUsed = true := by
  rcases iter_eq_ret hm h with ⟨-, c0, ehn0, c1, se, te, hp, hd, h⟩ | ⟨h, -⟩
  · rcases h with ⟨-, -, h⟩ | ⟨-, -, he, -, -⟩ | ⟨eu, -, -, -, -, h⟩
    · cases h; exact .inl (pendingEvent_ehn hp h')
    · right
      have f := (pendingEvent_frame hp).advance (m := m) |>.trans (Frame.fixedStep hd)
      rw [f.emu] at he
      exact he
    · cases h; exact .inl (pendingEvent_ehn hp h')
  · cases h

theorem Loop.ehn (hm : OkOrError m) {next : F} {c c' : Comp F D} {ehn n s e r}
    (h : Loop m next c ehn n c' s e r) (hs : s = .OK) (he : e = true) :
    ehn = true ∨ c.eventModeUsed = true := by
  induction h with
  | done => exact .inl he
  | step hr e _ ih =>
    rcases ih hs he with h | h
    · exact iter_ehn hm e h
    · right
      have := (iter_frame hm e).emu
      rw [this] at h
      exact h
  | leave hr e => exact iter_ehn hm e he
  | error => cases hs

theorem Loop.done_reached {next : F} {c c' : Comp F D} {ehn n s e r}
    (h : Loop m next c ehn n c' s e r) (hr : r = true) : reached m next c' = true := by
  induction h with
  | done => exact hr
  | step _ _ _ ih => exact ih hr
  | leave => cases hr
  | error => cases hr

/-- The two switches given at instantiation never change. -/
theorem switches_inv (m : Model F D) (a b : Bool) :
    HistInv m fun c : Comp F D => c.earlyReturnAllowed = a ∧ c.eventModeUsed = b where
  lift h _ _ := h
  log _ h := h
  dirty _ h := h
  adv h _ := h
  iu h _ := h
  ncp _ h := h
  nx h := h
  nz h := h
  x _ h := h
  dx _ h := h
  z _ h := h
  prez _ h := h
  flags _ _ h := h
  term h := h
  enterInit _ _ h _ := h
  exitInit h _ := h
  enterConfig h _ := h
  exitConfig h _ := h
  reset h := Outcome.all_ret.2 h
  restore _ h := h
  enterEvent h _ := h
  enterCT h _ := h
  enterStep h _ := h
  setTime _ h _ := h

/-- **C25**. After every history of an FMI 3.0 Co-Simulation instance, a `fmi3DoStep` that returns
OK gives outputs such that
* `earlyReturn` implies that early return was allowed at instantiation,
* `eventHandlingNeeded` implies that Event Mode was requested at instantiation,
* `lastSuccessfulTime` is the value of the time variable,
* `terminateSimulation` is the flag kept by the FMU since its last event update,
* either the step was completed: one more solver step would pass its end point, `earlyReturn` is
  false, and the end point is the communication point expected next; or it was not: then
  `lastSuccessfulTime` is the one expected next, and `earlyReturn` or `terminateSimulation` tells it. -/
theorem C25_outputs (hm : RefFMU3 m)
    {name token resource loggingOn eventModeUsed earlyReturnAllowed logger iu mem c l w₀}
    (hn : instantiateCoSimulation m name token resource loggingOn eventModeUsed earlyReturnAllowed
      logger iu mem = (some c, l))
    (h₀ : w₀.Initial c) {fuel fuel' : Nat} {ops : List (Op F)} {w outs}
    (hrun : run m fuel w₀ ops = .ret (w, outs)) {w' : World F D} {ccp h : F} {out o}
    (e : step m fuel' w (.doStep ccp h out) = .ret (w', .OK, o)) :
    ∃ ehn term early t, o = .step ⟨some ehn, some term, some early, some t⟩ ∧
      (early = true → earlyReturnAllowed = true) ∧
      (ehn = true → eventModeUsed = true) ∧
      ReadsTime m w' t ∧
      term = w'.inst.mv.terminateSimulation ∧
      ((ccp +. h <. (t +. m.h)) = true ∧ isClose (t +. m.h) (ccp +. h) = false ∧ early = false ∧
          w'.inst.clock.expected = ccp +. h ∨
        w'.inst.clock.expected = t ∧ (early = true ∨ term = true)) := by
  have hk := hm.eff.okOrError
  have hc : c.earlyReturnAllowed = earlyReturnAllowed ∧ c.eventModeUsed = eventModeUsed := by
    unfold instantiateCoSimulation at hn
    split at hn
    · simp at hn
    · simp only [Prod.mk.injEq, Option.map_eq_some_iff] at hn
      obtain ⟨⟨c0, -, rfl⟩, -⟩ := hn
      exact ⟨rfl, rfl⟩
  have hw := (run_inv hk (switches_inv m _ _) ops (.initial h₀ hc) _ hrun).inst
  simp only at hw
  obtain ⟨-, n, c', ehn, r, -, hl, rfl, rfl⟩ := doStep_loop hk e
  have hfl := hl.frameFlags hk
  refine ⟨_, _, _, _, rfl, ?_, ?_, reads_time hk hm.timeVar _, rfl, ?_⟩
  · intro h
    simp only [Bool.and_eq_true] at h
    rw [← hw.1, ← hfl.1, h.1]
  · intro h
    rw [← hw.2]
    simpa using hl.ehn hk rfl h
  · cases r
    · right
      refine ⟨rfl, ?_⟩
      simpa using hl.left hk rfl rfl
    · left
      have := hl.done_reached rfl
      unfold reached at this
      simp only [Bool.and_eq_true, Bool.not_eq_true'] at this
      exact ⟨this.1, this.2, by simp, rfl⟩

/-- Non-vacuity: with Event Mode and early return, Stair stops the step from 0 to 2 at its time
event and asks for event handling. -/
example : (Ex.runCS3 Stair.model true true (Ex.init3 ++ [.enterStepMode,
    .doStep (.fin 0) (.fin 2) Ex.stepOut, .get .float64 (some [0]) 1 (some [.fin 7]) 1])).is
    (fun x => decide (x.2.drop 3 = [(.OK, .step ⟨some true, some false, some true, some (.fin 1)⟩),
      (.OK, .values .float64 (some [.fin 1]))]) &&
      decide (x.1.inst.clock.expected = .fin 1)) = true := by
  decide +kernel

/-- Non-vacuity: without Event Mode, Stair terminates at time 9. -/
example : (Ex.runCS3 Stair.model false false (Ex.init3 ++ [
    .doStep (.fin 0) (.fin 5) Ex.stepOut, .doStep (.fin 5) (.fin 20) Ex.stepOut])).is
    (fun x => decide (x.2.drop 2 = [(.OK, .step ⟨some false, some false, some false, some (.fin 5)⟩),
      (.OK, .step ⟨some false, some true, some false, some (.fin 9)⟩)])) = true := by
  decide +kernel

end Verif.FMI3
