import Verif.Lemmas.Loop
import Verif.Lemmas.Modes2
import Verif.Lemmas.Modes3

/-!
# What calls do to the times an instance keeps
-/

set_option linter.unusedSectionVars false

namespace Verif
variable {F D : Type} {m : Model F D}

/-- The times and the step counter of an instance. -/
structure Times (F : Type) where
  time : F
  startTime : F
  stopTime : F
  ncp : F
  nSteps : Nat

/-- The times of an instance. -/
def Comp.times (c : Comp F D) : Times F where
  time := c.ctx.time
  startTime := c.startTime
  stopTime := c.stopTime
  ncp := c.nextCommunicationPoint
  nSteps := c.nSteps

theorem Frame.times {c c' : Comp F D} (h : Frame c c') : c'.times = c.times := by
  unfold Comp.times
  rw [h.ctx, h.startTime, h.stopTime, h.ncp, h.nSteps]

theorem times_quiet (T : MFn → Prop) (t : Times F) : Quiet m T fun c => c.times = t :=
  ⟨fun h _ _ => h, fun _ h => h, fun _ h => h⟩

theorem configurate_frame {c c' : Comp F D} {s u} (h : configurate m c = .ret (c', s, u)) :
    c'.times = c.times := by
  unfold configurate at h
  simp only at h
  split at h
  · rcases callCo_eq_ret.1 h with ⟨c1, x, e1, h⟩ | ⟨c1, s1, a, e1, -, h⟩
    · obtain ⟨mv, -, rfl⟩ := lift_eq_ret.1 e1
      cases h
      split <;> rfl
    · obtain ⟨mv, -, rfl⟩ := lift_eq_ret.1 e1
      cases h
      rfl
  · cases h
    split <;> rfl

theorem call_times {α β : Type} {st : Status} {r : Res F D α} {stop : α → β} {k} {t : Times F}
    (hr : r.All fun x => x.1.times = t) (hk : ∀ c st a, c.times = t →
      (k c st a : Res F D β).All fun x => x.1.times = t) :
    (call st r stop k).All fun x => x.1.times = t := by
  unfold call
  refine Outcome.All.bind hr ?_
  rintro ⟨c, s, a⟩ h
  simp only
  split
  · exact Outcome.all_ret.2 h
  · exact Outcome.all_ret.2 h
  · exact Outcome.all_ret.2 h
  · exact hk _ _ _ h

theorem configurate_times {c : Comp F D} {t : Times F} (h : c.times = t) :
    (configurate m c).All fun x => x.1.times = t := by
  rintro ⟨c', s, u⟩ e
  exact (configurate_frame e).trans h

theorem refresh_times {β : Type} {st : Status} {c : Comp F D} {stop : β} {k} {t : Times F}
    (hc : c.times = t) (hk : ∀ c st, c.times = t → (k c st : Res F D β).All fun x => x.1.times = t) :
    (refresh m st c stop k).All fun x => x.1.times = t := by
  unfold refresh
  split
  · refine call_times ?_ fun c st _ h => hk _ _ h
    rintro ⟨c', s, u⟩ e
    exact (Frame.lift e).times.trans hc
  · exact hk _ _ hc

variable [Arith F] [HasInf F]

namespace FMI2

/-- The times after a call with status `s` that makes no solver steps. -/
def timesAfter (w : World F D) (op : Op F) (s : Status) : Times F :=
  if s = .OK then
    match op with
    | .setupExperiment a d b => { w.inst.times with
        time := a, startTime := a, stopTime := if d then b else HasInf.inf, ncp := a }
    | .reset => { w.inst.times with time := Arith.lit 0, startTime := Arith.lit 0, nSteps := 0 }
    | .setTime t => { w.inst.times with time := t }
    | .setFMUstate i =>
      match w.slots i with
      | some s => s.times
      | none => w.inst.times
    | _ => w.inst.times
  else w.inst.times

theorem step_times (hm : OkOrError m) {fuel : Nat} {w : World F D} {op : Op F}
    (hd : op.fn ≠ .doStep) :
    (step m fuel w op).All fun x => x.1.inst.times = timesAfter w op x.2.1 := by
  by_cases ha : w.inst.ctx.state ∈ Spec.allowedIn op.fn
  · have hal := (allowed_fn w.inst.ctx op.fn).2 ha
    by_cases hop : op.switches = false
    · refine Outcome.All.mono (step_quiet hm (times_quiet _ w.inst.times)
        (fun _ _ _ _ h => h) rfl hop hd) ?_
      rintro ⟨w', s, o⟩ h
      have : timesAfter w op s = w.inst.times := by
        unfold timesAfter
        split
        · cases op <;> first | rfl | cases hop
        · rfl
      rw [this]
      rcases h with ⟨-, h⟩ | ⟨-, c, h, e⟩
      · exact h
      · simp only at e ⊢
        rw [e]; exact h
    · cases op <;> simp only [Op.switches, not_true_eq_false] at hop <;>
        simp only [Op.fn, Fn.mask] at hal
      case setupExperiment =>
        simp [step, World.run, setupExperiment, begin, beginFunction, hal, timesAfter, Comp.times,
          Comp.setTime]
      case enterInitializationMode =>
        simp [step, World.run, enterInitializationMode, begin, beginFunction, hal, timesAfter,
          Comp.times, Comp.setState]
      case terminate =>
        simp [step, World.run, terminate, begin, beginFunction, hal, timesAfter, Comp.times,
          Comp.setState]
      case enterEventMode =>
        simp [step, World.run, enterEventMode, begin, beginFunction, hal, timesAfter, Comp.times,
          Comp.setState]
      case enterContinuousTimeMode =>
        simp [step, World.run, enterContinuousTimeMode, begin, beginFunction, hal, timesAfter,
          Comp.times, Comp.setState]
      case setTime =>
        simp [step, World.run, setTime, begin, beginFunction, hal, timesAfter, Comp.times,
          Comp.setTime]
      case reset =>
        simp [step, World.run, reset, begin, beginFunction, hal, Verif.reset, timesAfter, Comp.times,
          Comp.setState, Comp.setTime, Comp.setDirty, callLast, call, Status.rank]
      case setFMUstate i =>
        cases hs : w.slots i <;>
          simp [step, World.run, setFMUstate, begin, beginFunction, hal, hs, timesAfter, Comp.times,
            Comp.logError, setFMUState]
      case exitInitializationMode =>
        simp only [step, World.run]
        refine Outcome.All.bind (R := fun x => x.1.times = w.inst.times) ?_ fun x hx => ?_
        · simp only [exitInitializationMode, begin, beginFunction, hal, if_true]
          refine refresh_times rfl fun c st h => ?_
          exact call_times (configurate_times h) fun c st _ h => by simpa using h
        · rw [Outcome.all_ret]
          simp only [timesAfter]
          split <;> exact hx
  · obtain ⟨w', e, l, -, -, rfl⟩ := refused m fuel w op ha
    rw [e, Outcome.all_ret]
    rfl

end FMI2

namespace FMI3

/-- The times after a call with status `s` that makes no solver steps. -/
def timesAfter (w : World F D) (op : Op F) (s : Status) : Times F :=
  if s = .OK then
    match op with
    | .enterInitializationMode a d b => { w.inst.times with
        time := a, startTime := a, stopTime := if d then b else HasInf.inf, ncp := a }
    | .reset => { w.inst.times with time := Arith.lit 0, startTime := Arith.lit 0, nSteps := 0 }
    | .setTime t => { w.inst.times with time := t }
    | .setFMUState i =>
      match w.slots i with
      | some s => s.times
      | none => w.inst.times
    | _ => w.inst.times
  else w.inst.times

theorem step_times (hm : OkOrError m) {fuel : Nat} {w : World F D} {op : Op F}
    (hd : op.fn ≠ .doStep) :
    (step m fuel w op).All fun x => x.1.inst.times = timesAfter w op x.2.1 := by
  by_cases hu : op.unsupported m = false
  · have hn : ∀ f, op ≠ .notImplemented f := by rintro f rfl; cases hu
    by_cases ha : w.inst.ctx.state ∈ Spec.allowedIn op.fn
    · have hal := (allowed_fn w.inst.ctx op.fn).2 ha
      by_cases hop : op.switches = false
      · refine Outcome.All.mono (step_quiet hm (times_quiet _ w.inst.times)
          (fun _ _ _ _ h => h) rfl hop hd hu) ?_
        rintro ⟨w', s, o⟩ h
        have : timesAfter w op s = w.inst.times := by
          unfold timesAfter
          split
          · cases op <;> first | rfl | cases hop
          · rfl
        rw [this]
        rcases h with ⟨-, h⟩ | ⟨-, c, h, e⟩
        · exact h
        · simp only at e ⊢
          rw [e]; exact h
      · cases op <;> simp only [Op.switches, not_true_eq_false] at hop <;>
          simp only [Op.fn, Fn.mask] at hal
        case enterInitializationMode =>
          simp [step, World.run, enterInitializationMode, begin, beginFunction, hal, timesAfter,
            Comp.times, Comp.setState, Comp.setTime]
        case terminate =>
          simp [step, World.run, terminate, begin, beginFunction, hal, timesAfter, Comp.times,
            Comp.setState]
        case enterEventMode =>
          simp [step, World.run, enterEventMode, begin, beginFunction, hal, timesAfter, Comp.times,
            Comp.setState]
        case enterContinuousTimeMode =>
          simp [step, World.run, enterContinuousTimeMode, begin, beginFunction, hal, timesAfter,
            Comp.times, Comp.setState]
        case enterStepMode =>
          simp [step, World.run, enterStepMode, begin, beginFunction, hal, timesAfter,
            Comp.times, Comp.setState]
        case enterConfigurationMode =>
          simp [step, World.run, enterConfigurationMode, begin, beginFunction, hal, timesAfter,
            Comp.times, Comp.setState]
        case setTime =>
          simp [step, World.run, setTime, begin, beginFunction, hal, timesAfter, Comp.times,
            Comp.setTime]
        case reset =>
          simp [step, World.run, reset, begin, beginFunction, hal, Verif.reset, timesAfter,
            Comp.times, Comp.setState, Comp.setTime, Comp.setDirty, callLast, call, Status.rank]
        case setFMUState i =>
          cases hs : w.slots i <;>
            simp [step, World.run, setFMUState, begin, beginFunction, hal, hs, timesAfter, Comp.times,
              Comp.logError, Verif.setFMUState, callLast, call, Status.rank, Comp.setState]
        case exitConfigurationMode =>
          simp only [step, World.run]
          refine Outcome.All.bind (R := fun x => x.1.times = w.inst.times) ?_ fun x hx => ?_
          · simp only [exitConfigurationMode, begin, beginFunction, hal, if_true]
            split
            · exact call_times (configurate_times rfl) fun c st _ h => by simpa [Comp.times] using h
            · simp [Comp.times, Comp.setState]
          · rw [Outcome.all_ret]
            simp only [timesAfter]
            split <;> exact hx
        case exitInitializationMode =>
          simp only [step, World.run]
          refine Outcome.All.bind (R := fun x => x.1.times = w.inst.times) ?_ fun x hx => ?_
          · simp only [exitInitializationMode, begin, beginFunction, hal, if_true]
            refine refresh_times rfl fun c st h => ?_
            exact call_times (configurate_times h) fun c st _ h => by simpa using h
          · rw [Outcome.all_ret]
            simp only [timesAfter]
            split <;> exact hx
    · obtain ⟨w', e, l, -, -, rfl⟩ := refused m fuel w op hn ha
      rw [e, Outcome.all_ret]
      rfl
  · cases op <;> simp only [Op.unsupported, not_true_eq_false] at hu
    case notImplemented f =>
      simp [step, World.run, notImplemented, Comp.logError, timesAfter, Comp.times]
    case getOutputDerivatives =>
      simp only [Bool.not_eq_false, Option.isNone_iff_eq_none] at hu
      simp only [step, World.run, getOutputDerivatives, begin, beginFunction, hu, timesAfter]
      split <;> simp [notImplemented, Comp.logError, Comp.setState, Comp.times]

end FMI3
end Verif
