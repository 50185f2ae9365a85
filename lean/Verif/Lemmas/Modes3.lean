import Verif.Spec.Modes3
import Verif.Spec.Reach
import Verif.Lemmas.Modes2
import Verif.Lemmas.Hist3

/-! # Mode table of the FMI 3.0 model -/

set_option linter.unusedSectionVars false

namespace Verif
namespace FMI3
variable {F D : Type}

/-- The mask tested by each function. -/
def Fn.mask : Fn → Nat
  | .setDebugLogging | .reset | .getFMUState | .setFMUState | .freeFMUState
  | .serializedFMUStateSize | .serializeFMUState | .deserializeFMUState | .getClock | .setClock
  | .getIntervalDecimal | .updateDiscreteStates | .getNumberOfEventIndicators
  | .getNumberOfContinuousStates | .notImplemented _ => MASK_AnyState
  | .enterInitializationMode => MASK_EnterInitializationMode
  | .exitInitializationMode => MASK_ExitInitializationMode
  | .enterEventMode => MASK_EnterEventMode
  | .terminate => MASK_Terminate
  | .get _ => MASK_Get
  | .set t => setMask t
  | .getDirectionalDerivative | .getAdjointDerivative => MASK_GetDirectionalDerivative
  | .enterConfigurationMode => MASK_EnterConfigurationMode
  | .exitConfigurationMode => MASK_ExitConfigurationMode
  | .enterContinuousTimeMode => MASK_EnterContinuousTimeMode
  | .completedIntegratorStep => MASK_CompletedIntegratorStep
  | .setTime => MASK_SetTime
  | .setContinuousStates => MASK_SetContinuousStates
  | .getDerivatives | .getEventIndicators | .getContinuousStates | .getNominals =>
    MASK_GetContinuousStateDerivatives
  | .enterStepMode => MASK_EnterStepMode
  | .getOutputDerivatives => MASK_GetOutputDerivatives
  | .doStep => MASK_DoStep
  | .activateModelPartition => MASK_ActivateModelPartition

theorem allowed_fn (ctx : Ctx F) (fn : Fn) :
    allowed ctx fn.mask = true ↔ ctx.state ∈ Spec.allowedIn fn := by
  unfold allowed
  generalize ctx.state = s
  cases fn
  case get t => cases t <;> cases s <;> decide
  case set t => cases t <;> cases s <;> decide
  case notImplemented f => cases f <;> cases s <;> decide
  all_goals cases s <;> decide

/-- A refused call on the instance. -/
theorem begin_refuse {β : Type} {mask : Nat} {name : String} {c : Comp F D} {stop : β}
    {k : Comp F D → Res F D β} (h : allowed c.ctx mask = false) :
    begin mask name c stop k =
      .ret ((c.logError (name ++ ": Illegal call sequence.")).setState .terminated, .Error, stop) := by
  simp [begin, beginFunction, h]

theorem Refused.of_inst {w : World F D} (msg : String) :
    Spec.Refused w { w with inst := (w.inst.logError msg).setState .terminated } := by
  refine ⟨if w.inst.ctx.logErrors && w.inst.ctx.logger then [.log .Error "logStatusError" msg] else [],
    ?_, ?_, ?_⟩
  · split <;> simp
  · split <;> simp
  · simp only [Comp.logError, logError, Comp.setState]
    split <;> simp

variable [Arith F] [HasInf F]

theorem refused (m : Model F D) (fuel : Nat) (w : World F D) (op : Op F)
    (hi : ∀ f, op ≠ .notImplemented f) (h : w.inst.ctx.state ∉ Spec.allowedIn op.fn) :
    ∃ w', step m fuel w op = .ret (w', .Error, Spec.outputs op) ∧ Spec.Refused w w' := by
  have ha : allowed w.inst.ctx op.fn.mask = false :=
    Bool.eq_false_iff.2 fun e => h ((allowed_fn _ _).1 e)
  have slot : ∀ i : Nat, (fun j => if j = i then w.slots i else w.slots j) = w.slots := by
    intro i; funext j; split <;> simp [*]
  have buf : ∀ i : Nat, (fun j => if j = i then w.bufs i else w.bufs j) = w.bufs := by
    intro i; funext j; split <;> simp [*]
  cases op
  case notImplemented f => exact absurd rfl (hi f)
  all_goals
    simp only [Op.fn, Fn.mask] at ha
    exact ⟨_, by
      simp only [step, World.run, World.runSlot, World.runBuf, setDebugLogging,
        enterInitializationMode, exitInitializationMode, terminate, reset, getVars, setVars,
        getClock, setClock, getFMUState, setFMUState,
        freeFMUState, serializedFMUStateSize, serializeFMUState, deserializeFMUState,
        getDirectionalDerivative, getAdjointDerivative, getOutputDerivatives,
        doStep, getIntervalDecimal, updateDiscreteStates, enterConfigurationMode,
        exitConfigurationMode, enterStepMode, activateModelPartition, getNumberOfContinuousStates,
        getNumberOfEventIndicators,
        enterEventMode, enterContinuousTimeMode, completedIntegratorStep, setTime,
        setContinuousStates, getDerivatives, getEventIndicators, getContinuousStates, getNominals,
        begin_refuse ha, Outcome.ret_bind, Spec.outputs, slot, buf]
      rfl, Refused.of_inst _⟩

/-- The mode and interface type after an allowed call. -/
theorem step_mode {m : Model F D} (hm : OkOrError m) {fuel : Nat} {w : World F D} {op : Op F}
    (ha : w.inst.ctx.state ∈ Spec.allowedIn op.fn) (hu : op.unsupported m = false) :
    (step m fuel w op).All fun x => x.1.inst.ctx.typ = w.inst.ctx.typ ∧
      (x.2.1 = .Error ∧ x.1.inst.ctx.state = .terminated ∨
        (x.2.1 = .OK ∨ x.2.1 = .Discard) ∧ x.1.inst.ctx.state = Spec.modeAfter w op) := by
  have hal := (allowed_fn w.inst.ctx op.fn).2 ha
  by_cases hop : op.switches = false
  · refine Outcome.All.mono (step_body hm (FMI2.stepQuiet_mode m w.inst.ctx.state w.inst.ctx.typ)
      (fun _ _ _ _ h => h) ⟨rfl, rfl⟩ hop hu) ?_
    have : Spec.modeAfter w op = w.inst.ctx.state := by
      cases op <;> first | rfl | cases hop
    rintro ⟨w', s, o⟩ h
    rw [this]
    rcases h with ⟨h1, h2, h3⟩ | ⟨h1, c, ⟨h2, h3⟩, h4⟩
    · exact ⟨h3, .inr ⟨h1, h2⟩⟩
    · simp only at h1 h4 ⊢
      rw [h4]
      exact ⟨h3, .inl ⟨h1, rfl⟩⟩
  · cases op <;> simp only [Op.switches, not_true_eq_false] at hop <;>
      simp only [Op.fn, Fn.mask] at hal
    case enterInitializationMode =>
      simp [step, World.run, enterInitializationMode, begin, beginFunction, hal, Spec.modeAfter,
        Spec.nextMode, Comp.setState, Comp.setTime, Op.fn]
    case terminate =>
      simp [step, World.run, terminate, begin, beginFunction, hal, Spec.modeAfter,
        Spec.nextMode, Comp.setState, Op.fn]
    case enterEventMode =>
      simp [step, World.run, enterEventMode, begin, beginFunction, hal, Spec.modeAfter,
        Spec.nextMode, Comp.setState, Op.fn]
    case enterContinuousTimeMode =>
      simp [step, World.run, enterContinuousTimeMode, begin, beginFunction, hal, Spec.modeAfter,
        Spec.nextMode, Comp.setState, Op.fn]
    case enterStepMode =>
      simp [step, World.run, enterStepMode, begin, beginFunction, hal, Spec.modeAfter,
        Spec.nextMode, Comp.setState, Op.fn]
    case enterConfigurationMode =>
      simp [step, World.run, enterConfigurationMode, begin, beginFunction, hal, Spec.modeAfter,
        Spec.nextMode, Comp.setState, Op.fn]
    case setTime =>
      simp [step, World.run, setTime, begin, beginFunction, hal, Spec.modeAfter,
        Spec.nextMode, Comp.setTime, Op.fn]
    case reset =>
      simp [step, World.run, reset, begin, beginFunction, hal, Spec.modeAfter, Verif.reset,
        Spec.nextMode, Comp.setState, Comp.setTime, Comp.setDirty, Op.fn, callLast, call,
        Status.rank]
    case setFMUState i =>
      cases hs : w.slots i <;>
        simp [step, World.run, setFMUState, begin, beginFunction, hal, Spec.modeAfter, hs,
          Comp.logError, Verif.setFMUState, callLast, call, Status.rank, Comp.setState]
    case exitConfigurationMode =>
      simp only [step, World.run]
      refine Outcome.All.bind (R := fun x => x.1.ctx.typ = w.inst.ctx.typ ∧
        (x.2.1 = .Error ∧ x.1.ctx.state = .terminated ∨
        (x.2.1 = .OK ∨ x.2.1 = .Discard) ∧
          x.1.ctx.state = Spec.modeAfter w .exitConfigurationMode)) ?_
        fun x hx => Outcome.all_ret.2 hx
      simp only [exitConfigurationMode, begin, beginFunction, hal, if_true]
      split
      · refine Outcome.All.bind (FMI2.configurate_all hm _) ?_
        rintro ⟨c', s, b⟩ ⟨hs, hc'⟩
        simp only at hs hc'
        rcases hs with rfl | rfl
        · simp [Status.rank, hc', Comp.setState, Spec.modeAfter, Spec.nextMode, Op.fn,
            stateAfterConfig]
          rfl
        · simp [Status.rank, hc', Comp.setState]
      · simp [Comp.setState, Spec.modeAfter, Spec.nextMode, Op.fn, stateAfterConfig]
        rfl
    case exitInitializationMode =>
      simp only [step, World.run]
      refine Outcome.All.bind (R := fun x => x.1.ctx.typ = w.inst.ctx.typ ∧
        (x.2.1 = .Error ∧ x.1.ctx.state = .terminated ∨
        (x.2.1 = .OK ∨ x.2.1 = .Discard) ∧
          x.1.ctx.state = Spec.modeAfter w .exitInitializationMode)) ?_
        fun x hx => Outcome.all_ret.2 hx
      have fin : ∀ c : Comp F D, c.ctx = w.inst.ctx → c.eventModeUsed = w.inst.eventModeUsed →
          (call .OK (configurate m (c.setState (stateAfterInit c))) id
            fun c st _ => (.ret (c, st, ()) : Res F D Unit)).All fun x =>
          x.1.ctx.typ = w.inst.ctx.typ ∧ (x.2.1 = .Error ∧ x.1.ctx.state = .terminated ∨
            (x.2.1 = .OK ∨ x.2.1 = .Discard) ∧
            x.1.ctx.state = Spec.modeAfter w .exitInitializationMode) := by
        intro c hc he
        refine Outcome.All.bind (FMI2.configurate_all hm _) ?_
        rintro ⟨c', s, b⟩ ⟨hs, hc'⟩
        simp only at hs hc'
        rcases hs with rfl | rfl
        · simp [Status.rank, hc', Comp.setState, hc, Spec.modeAfter, Spec.nextMode, Op.fn,
            stateAfterInit, he]
          rfl
        · simp [Status.rank, hc', Comp.setState, hc]
      simp only [exitInitializationMode, begin, beginFunction, hal, if_true, refresh]
      split
      · refine Outcome.All.bind Outcome.all_self ?_
        rintro ⟨c, s, b⟩ e
        obtain ⟨⟨mv, s', b'⟩, e1, e2⟩ := Outcome.bind_eq_ret.1 e
        cases e2
        rcases hm _ _ _ _ _ (.calc e1) with rfl | rfl
        · exact fin _ rfl rfl
        · simp [Status.rank, Comp.setState]
      · exact fin _ rfl rfl

/-- The mode and interface type after any call. -/
theorem step_mode' {m : Model F D} (hm : OkOrError m) {fuel : Nat} {w : World F D} {op : Op F} :
    (step m fuel w op).All fun x => x.1.inst.ctx.typ = w.inst.ctx.typ ∧
      (x.2.1 = .Error ∧ x.1.inst.ctx.state = .terminated ∨
        (x.2.1 = .OK ∨ x.2.1 = .Discard) ∧ w.inst.ctx.state ∈ Spec.allowedIn op.fn ∧
          x.1.inst.ctx.state = Spec.modeAfter w op ∨
        op.unsupported m = true ∧ x.2.1 = .Error ∧ x.1.inst.ctx.state = w.inst.ctx.state) := by
  by_cases hu : op.unsupported m = false
  · have hn : ∀ f, op ≠ .notImplemented f := by rintro f rfl; cases hu
    by_cases ha : w.inst.ctx.state ∈ Spec.allowedIn op.fn
    · exact (step_mode hm ha hu).mono fun x hx => by simpa [ha, hu] using hx
    · obtain ⟨w', e, l, -, -, rfl⟩ := refused m fuel w op hn ha
      rw [e, Outcome.all_ret]
      simp
  · cases op <;> simp only [Op.unsupported, not_true_eq_false] at hu
    case notImplemented f =>
      simp [step, World.run, notImplemented, Comp.logError, Op.unsupported]
    case getOutputDerivatives =>
      simp only [Bool.not_eq_false, Option.isNone_iff_eq_none] at hu
      simp only [step, World.run, getOutputDerivatives, begin, beginFunction, hu, Op.unsupported]
      split <;> simp [notImplemented, Comp.logError, Comp.setState]

end FMI3
end Verif
