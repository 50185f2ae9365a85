import Verif.Lemmas.ModelEff
import Verif.Lemmas.Hist2
import Verif.Lemmas.Hist3

/-!
# Calls that do not handle events

Most API functions never call `eventUpdate`, so they behave as if the FMU had none.
-/

set_option linter.unusedSectionVars false

namespace Verif
variable {F D : Type} {m : Model F D}

/-- The FMU without `eventUpdate`. -/
def Model.noEvent (m : Model F D) : Model F D := { m with eventUpdate := none }

theorem MStep.noEvent {f : MFn} {ctx mv mv' s} (h : MStep m.noEvent f ctx mv mv' s) :
    f ≠ .event ∧ MStep m f ctx mv mv' s := by
  cases h
  case event eu _ _ e => simp [Model.noEvent] at *
  case «calc» e => exact ⟨by simp, .calc e⟩
  case get e => exact ⟨by simp, .get e⟩
  case set e => exact ⟨by simp, .set e⟩
  case getStates e => exact ⟨by simp, .getStates e⟩
  case nominals e => exact ⟨by simp, .nominals e⟩
  case setStates e => exact ⟨by simp, .setStates e⟩
  case deriv e => exact ⟨by simp, .deriv e⟩
  case indicators e => exact ⟨by simp, .indicators e⟩
  case partialDeriv e => exact ⟨by simp, .partialDeriv e⟩
  case outDeriv h e => exact ⟨by simp, .outDeriv h e⟩
  case activate e => exact ⟨by simp, .activate e⟩
  case getClock e => exact ⟨by simp, .getClock e⟩
  case getInterval e => exact ⟨by simp, .getInterval e⟩
  case partition e => exact ⟨by simp, .partition e⟩

theorem OkOrError.noEvent (hm : OkOrError m) : OkOrError m.noEvent :=
  fun _ _ _ _ _ h => hm _ _ _ _ _ h.noEvent.2

theorem Model.Eff.noEvent (hm : m.Eff) {f : MFn} {ctx mv mv' s}
    (h : MStep m.noEvent f ctx mv mv' s) : mv'.terminateSimulation = mv.terminateSimulation :=
  ((hm _ _ _ _ _ h.noEvent.2).flags h.noEvent.1).1

theorem getLoop_noEvent {t vr nv n} : ∀ {i c st p k}, getLoop m.noEvent t vr nv n i c st p k =
    getLoop m t vr nv n i c st p k := by
  induction n with
  | zero => intros; rfl
  | succ n ih => intros; simp only [getLoop, ih]; rfl

theorem setLoop_noEvent {t vr p nv n} : ∀ {i c st k}, setLoop m.noEvent t vr p nv n i c st k =
    setLoop m t vr p nv n i c st k := by
  induction n with
  | zero => intros; rfl
  | succ n ih => intros; simp only [setLoop, ih]; rfl

theorem derivInner_noEvent [Arith F] {pair seed n} : ∀ {i c st k},
    derivInner m.noEvent pair seed n i c st k = derivInner m pair seed n i c st k := by
  induction n with
  | zero => intros; rfl
  | succ n ih => intros; simp only [derivInner, ih]; rfl

theorem derivOuter_noEvent [Arith F] {pair seed k n} : ∀ {i c st o},
    derivOuter m.noEvent pair seed k n i c st o = derivOuter m pair seed k n i c st o := by
  induction n with
  | zero => intros; rfl
  | succ n ih => intros; simp only [derivOuter, ih, derivInner_noEvent]

namespace FMI2
theorem getBooleanLoop_noEvent {vr k n} : ∀ {i c st o},
    getBooleanLoop m.noEvent vr k n i c st o = getBooleanLoop m vr k n i c st o := by
  induction n with
  | zero => intros; rfl
  | succ n ih => intros; simp only [getBooleanLoop, ih]; rfl

theorem setBooleanLoop_noEvent {vr k v n} : ∀ {i c st},
    setBooleanLoop m.noEvent vr k v n i c st = setBooleanLoop m vr k v n i c st := by
  induction n with
  | zero => intros; rfl
  | succ n ih => intros; simp only [setBooleanLoop, ih]; rfl
end FMI2

namespace FMI3
theorem getClockLoop_noEvent {vr n} : ∀ {i c st o},
    getClockLoop m.noEvent vr n i c st o = getClockLoop m vr n i c st o := by
  induction n with
  | zero => intros; rfl
  | succ n ih => intros; simp only [getClockLoop, ih]; rfl

theorem setClockLoop_noEvent {vr v n} : ∀ {i c st},
    setClockLoop m.noEvent vr v n i c st = setClockLoop m vr v n i c st := by
  induction n with
  | zero => intros; rfl
  | succ n ih => intros; simp only [setClockLoop, ih]; rfl

theorem getIntervalLoop_noEvent {vr n} : ∀ {i c st o},
    getIntervalLoop m.noEvent vr n i c st o = getIntervalLoop m vr n i c st o := by
  induction n with
  | zero => intros; rfl
  | succ n ih => intros; simp only [getIntervalLoop, ih]; rfl
end FMI3

variable [Arith F] [HasInf F]

theorem FMI2.step_noEvent {fuel : Nat} {w : World F D} {op : Op F} (h1 : op.fn ≠ .doStep)
    (h2 : op.fn ≠ .newDiscreteStates) : step m fuel w op = step m.noEvent fuel w op := by
  cases op
  all_goals first | rfl | exact absurd rfl h1 | exact absurd rfl h2 | skip
  case getReal => simp only [step, getReal, getVariables, getLoop_noEvent]; rfl
  case getInteger => simp only [step, getInteger, getVariables, getLoop_noEvent]; rfl
  case getBoolean => simp only [step, getBoolean, getBooleanLoop_noEvent]
  case getString => simp only [step, getString, getVariables, getLoop_noEvent]; rfl
  case setReal => simp only [step, setReal, setVariables, setLoop_noEvent]
  case setInteger => simp only [step, setInteger, setVariables, setLoop_noEvent]
  case setBoolean => simp only [step, setBoolean, setBooleanLoop_noEvent]
  case setString => simp only [step, setString, setVariables, setLoop_noEvent]
  case getDirectionalDerivative =>
    simp only [step, getDirectionalDerivative, derivOuter_noEvent]

theorem FMI3.step_noEvent {fuel : Nat} {w : World F D} {op : Op F} (h1 : op.fn ≠ .doStep)
    (h2 : op.fn ≠ .updateDiscreteStates) : step m fuel w op = step m.noEvent fuel w op := by
  cases op
  all_goals first | rfl | exact absurd rfl h1 | exact absurd rfl h2 | skip
  case get => simp only [step, getVars, getLoop_noEvent]; rfl
  case set => simp only [step, setVars, setLoop_noEvent]
  case getClock => simp only [step, getClock, getClockLoop_noEvent]
  case setClock => simp only [step, setClock, setClockLoop_noEvent]
  case getIntervalDecimal => simp only [step, getIntervalDecimal, getIntervalLoop_noEvent]
  case getDirectionalDerivative =>
    simp only [step, getDirectionalDerivative, derivOuter_noEvent]
  case getAdjointDerivative => simp only [step, getAdjointDerivative, derivOuter_noEvent]

theorem logError_terminate (c : Comp F D) (msg : String) :
    (c.logError msg).mv.terminateSimulation = c.mv.terminateSimulation := by
  unfold Comp.logError logError
  simp only
  split <;> rfl

theorem terminate_stepQuiet (hm : m.Eff) (b : Bool) :
    StepQuiet m.noEvent fun c => c.mv.terminateSimulation = b where
  lift h _ e := (hm.noEvent e).trans h
  log msg h := (logError_terminate _ msg).trans h
  dirty _ h := h
  adv h _ := h
  iu h _ := h
  ncp _ h := h
  nx h := h
  nz h := h
  x _ h := h
  dx _ h := h
  z _ h := h
  prez _ h := h

end Verif
