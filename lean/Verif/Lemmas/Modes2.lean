import Verif.Spec.Modes2
import Verif.Spec.Reach
import Verif.Lemmas.ModelEff
import Verif.Lemmas.Hist2

/-! # Mode table of the FMI 2.0 model -/

set_option linter.unusedSectionVars false

namespace Verif
namespace FMI2
variable {F D : Type}

/-- The mask tested by each function. -/
def Fn.mask : Fn → Nat
  | .setDebugLogging => MASK_SetDebugLogging
  | .setupExperiment => MASK_SetupExperiment
  | .enterInitializationMode => MASK_EnterInitializationMode
  | .exitInitializationMode => MASK_ExitInitializationMode
  | .terminate => MASK_Terminate
  | .reset | .getFMUstate | .setFMUstate | .freeFMUstate | .serializedFMUstateSize
  | .serializeFMUstate | .deSerializeFMUstate => MASK_FreeInstance
  | .getReal | .getInteger | .getBoolean | .getString => MASK_GetReal
  | .setReal => MASK_SetReal
  | .setInteger | .setBoolean | .setString => MASK_SetInteger
  | .getDirectionalDerivative => MASK_GetDirectionalDerivative
  | .enterEventMode => MASK_EnterEventMode
  | .newDiscreteStates => MASK_NewDiscreteStates
  | .enterContinuousTimeMode => MASK_EnterContinuousTimeMode
  | .completedIntegratorStep => MASK_CompletedIntegratorStep
  | .setTime => MASK_SetTime
  | .setContinuousStates => MASK_SetContinuousStates
  | .getEventIndicators | .getContinuousStates => MASK_GetEventIndicators
  | .getDerivatives => MASK_GetDerivatives
  | .getNominals => MASK_GetNominals
  | .setRealInputDerivatives => MASK_SetRealInputDerivatives
  | .getRealOutputDerivatives => MASK_GetRealOutputDerivatives
  | .doStep => MASK_DoStep
  | .cancelStep => MASK_CancelStep
  | .getStatus | .getRealStatus | .getIntegerStatus | .getBooleanStatus | .getStringStatus =>
    MASK_GetStatus

theorem allowed_fn (ctx : Ctx F) (fn : Fn) :
    allowed ctx fn.mask = true ↔ ctx.state ∈ Spec.allowedIn fn := by
  unfold allowed
  generalize ctx.state = s
  cases fn <;> cases s <;> decide

/-- A refused call on the instance. -/
theorem begin_refuse {β : Type} {mask : Nat} {name : String} {c : Comp F D} {stop : β}
    {k : Comp F D → Res F D β} (h : allowed c.ctx mask = false) :
    begin mask name c stop k =
      .ret ((c.logError (name ++ ": Illegal call sequence.")).setState .terminated, .Error, stop) := by
  simp [begin, beginFunction, h]

theorem Refused.of_inst {w : World F D} (msg : String) :
    Spec.Refused w { w with inst := (w.inst.logError msg).setState .terminated } := by
  refine ⟨if w.inst.ctx.logErrors && w.inst.ctx.logger then [.log .Error "logStatusError" msg] else [],
    ?_, ?_, ?_⟩
  · split <;> simp
  · split <;> simp
  · simp only [Comp.logError, logError, Comp.setState]
    split <;> simp

theorem stepQuiet_mode [Arith F] (m : Model F D) (s : Mode) (t : IType) :
    StepQuiet m fun c => c.ctx.state = s ∧ c.ctx.typ = t := by
  constructor
  · exact ⟨⟨fun h _ _ => h, fun _ h => h, fun _ h => h⟩, fun h => h, fun h => h, fun _ h => h⟩
  all_goals first | exact fun h => h | exact fun _ h => h | exact fun h _ => h

/-- `configurate` does not change the context and returns `OK` or `Error`. -/
theorem configurate_all {m : Model F D} (hm : OkOrError m) (c : Comp F D) :
    (configurate m c).All fun x => (x.2.1 = .OK ∨ x.2.1 = .Error) ∧ x.1.ctx = c.ctx := by
  unfold configurate
  simp only
  split
  · refine Outcome.All.bind (R := fun x => (x.2.1 = .OK ∨ x.2.1 = .Error) ∧ x.1.ctx = c.ctx) ?_ ?_
    · refine Outcome.All.bind Outcome.all_self ?_
      rintro ⟨mv, s, b⟩ e
      rw [Outcome.all_ret]
      exact ⟨hm _ _ _ _ _ (.indicators e), rfl⟩
    · rintro ⟨c', s, b⟩ ⟨hs, hc⟩
      simp only at hs hc ⊢
      split
      · exact Outcome.all_ret.2 ⟨hs, hc⟩
      · rw [Outcome.all_ret]; split <;> simp [hc]
  · rw [Outcome.all_ret]; split <;> simp

variable [Arith F] [HasInf F]

theorem refused (m : Model F D) (fuel : Nat) (w : World F D) (op : Op F)
    (h : w.inst.ctx.state ∉ Spec.allowedIn op.fn) :
    ∃ w', step m fuel w op = .ret (w', .Error, Spec.outputs op) ∧ Spec.Refused w w' := by
  have ha : allowed w.inst.ctx op.fn.mask = false :=
    Bool.eq_false_iff.2 fun e => h ((allowed_fn _ _).1 e)
  have slot : ∀ i : Nat, (fun j => if j = i then w.slots i else w.slots j) = w.slots := by
    intro i; funext j; split <;> simp [*]
  have buf : ∀ i : Nat, (fun j => if j = i then w.bufs i else w.bufs j) = w.bufs := by
    intro i; funext j; split <;> simp [*]
  cases op <;> simp only [Op.fn, Fn.mask] at ha <;>
    exact ⟨_, by
      simp only [step, World.run, World.runSlot, World.runBuf, setDebugLogging, setupExperiment,
        enterInitializationMode, exitInitializationMode, terminate, reset, getReal, getInteger,
        getBoolean, getString, setReal, setInteger, setBoolean, setString, getFMUstate, setFMUstate,
        freeFMUstate, serializedFMUstateSize, serializeFMUstate, deSerializeFMUstate,
        getDirectionalDerivative, setRealInputDerivatives, getRealOutputDerivatives, cancelStep,
        doStep, getStatus, getRealStatus, getIntegerStatus, getBooleanStatus, getStringStatus,
        enterEventMode, newDiscreteStates, enterContinuousTimeMode, completedIntegratorStep, setTime,
        setContinuousStates, getDerivatives, getEventIndicators, getContinuousStates, getNominals,
        begin_refuse ha, Outcome.ret_bind, Spec.outputs, slot, buf]
      rfl, Refused.of_inst _⟩

/-- The mode and interface type after an allowed call. -/
theorem step_mode {m : Model F D} (hm : OkOrError m) {fuel : Nat} {w : World F D} {op : Op F}
    (ha : w.inst.ctx.state ∈ Spec.allowedIn op.fn) :
    (step m fuel w op).All fun x => x.1.inst.ctx.typ = w.inst.ctx.typ ∧
      (x.2.1 = .Error ∧ x.1.inst.ctx.state = .terminated ∨
        (x.2.1 = .OK ∨ x.2.1 = .Discard) ∧ x.1.inst.ctx.state = Spec.modeAfter w op) := by
  have hal := (allowed_fn w.inst.ctx op.fn).2 ha
  by_cases hop : op.switches = false
  · refine Outcome.All.mono (step_body hm (stepQuiet_mode m w.inst.ctx.state w.inst.ctx.typ)
      (fun _ _ _ _ h => h) ⟨rfl, rfl⟩ hop) ?_
    have : Spec.modeAfter w op = w.inst.ctx.state := by
      cases op <;> first | rfl | cases hop
    rintro ⟨w', s, o⟩ h
    rw [this]
    rcases h with ⟨h1, h2, h3⟩ | ⟨h1, c, ⟨h2, h3⟩, h4⟩
    · exact ⟨h3, .inr ⟨h1, h2⟩⟩
    · simp only at h1 h4 ⊢
      rw [h4]
      exact ⟨h3, .inl ⟨h1, rfl⟩⟩
  · cases op <;> simp only [Op.switches, not_true_eq_false] at hop <;>
      simp only [Op.fn, Fn.mask] at hal
    case setupExperiment =>
      simp [step, World.run, setupExperiment, begin, beginFunction, hal, Spec.modeAfter,
        Spec.nextMode, Comp.setTime, Op.fn]
    case enterInitializationMode =>
      simp [step, World.run, enterInitializationMode, begin, beginFunction, hal, Spec.modeAfter,
        Spec.nextMode, Comp.setState, Op.fn]
    case terminate =>
      simp [step, World.run, terminate, begin, beginFunction, hal, Spec.modeAfter,
        Spec.nextMode, Comp.setState, Op.fn]
    case enterEventMode =>
      simp [step, World.run, enterEventMode, begin, beginFunction, hal, Spec.modeAfter,
        Spec.nextMode, Comp.setState, Op.fn]
    case enterContinuousTimeMode =>
      simp [step, World.run, enterContinuousTimeMode, begin, beginFunction, hal, Spec.modeAfter,
        Spec.nextMode, Comp.setState, Op.fn]
    case setTime =>
      simp [step, World.run, setTime, begin, beginFunction, hal, Spec.modeAfter,
        Spec.nextMode, Comp.setTime, Op.fn]
    case reset =>
      simp [step, World.run, reset, begin, beginFunction, hal, Spec.modeAfter, Verif.reset,
        Spec.nextMode, Comp.setState, Comp.setTime, Comp.setDirty, Op.fn, callLast, call,
        Status.rank]
    case setFMUstate i =>
      cases hs : w.slots i <;>
        simp [step, World.run, setFMUstate, begin, beginFunction, hal, Spec.modeAfter, hs,
          Comp.logError, setFMUState]
    case exitInitializationMode =>
      simp only [step, World.run]
      refine Outcome.All.bind (R := fun x => x.1.ctx.typ = w.inst.ctx.typ ∧
        (x.2.1 = .Error ∧ x.1.ctx.state = .terminated ∨
        (x.2.1 = .OK ∨ x.2.1 = .Discard) ∧
          x.1.ctx.state = Spec.modeAfter w .exitInitializationMode)) ?_
        fun x hx => Outcome.all_ret.2 hx
      have fin : ∀ c : Comp F D, c.ctx = w.inst.ctx →
          (call .OK (configurate m (c.setState
            (if c.ctx.typ = .modelExchange then .eventMode else .stepComplete))) id
            fun c st _ => (.ret (c, st, ()) : Res F D Unit)).All fun x =>
          x.1.ctx.typ = w.inst.ctx.typ ∧ (x.2.1 = .Error ∧ x.1.ctx.state = .terminated ∨
            (x.2.1 = .OK ∨ x.2.1 = .Discard) ∧
            x.1.ctx.state = Spec.modeAfter w .exitInitializationMode) := by
        intro c hc
        refine Outcome.All.bind (configurate_all hm _) ?_
        rintro ⟨c', s, b⟩ ⟨hs, hc'⟩
        simp only at hs hc'
        rcases hs with rfl | rfl
        · simp [Status.rank, hc', Comp.setState, hc, Spec.modeAfter, Spec.nextMode, Op.fn]
        · simp [Status.rank, hc', Comp.setState, hc]
      simp only [exitInitializationMode, begin, beginFunction, hal, if_true, refresh]
      split
      · refine Outcome.All.bind Outcome.all_self ?_
        rintro ⟨c, s, b⟩ e
        obtain ⟨⟨mv, s', b'⟩, e1, e2⟩ := Outcome.bind_eq_ret.1 e
        cases e2
        rcases hm _ _ _ _ _ (.calc e1) with rfl | rfl
        · exact fin _ rfl
        · simp [Status.rank, Comp.setState]
      · exact fin _ rfl

/-- The mode and interface type after any call. -/
theorem step_mode' {m : Model F D} (hm : OkOrError m) {fuel : Nat} {w : World F D} {op : Op F} :
    (step m fuel w op).All fun x => x.1.inst.ctx.typ = w.inst.ctx.typ ∧
      (x.2.1 = .Error ∧ x.1.inst.ctx.state = .terminated ∨
        (x.2.1 = .OK ∨ x.2.1 = .Discard) ∧ w.inst.ctx.state ∈ Spec.allowedIn op.fn ∧
          x.1.inst.ctx.state = Spec.modeAfter w op) := by
  by_cases ha : w.inst.ctx.state ∈ Spec.allowedIn op.fn
  · exact (step_mode hm ha).mono fun x hx => by simpa [ha] using hx
  · obtain ⟨w', e, l, -, -, rfl⟩ := refused m fuel w op ha
    rw [e, Outcome.all_ret]
    simp

end FMI2
end Verif
