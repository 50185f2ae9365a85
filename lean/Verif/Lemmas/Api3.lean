import Verif.Lemmas.ModelEff
import Verif.History3

/-!
# Bodies of the FMI 3.0 functions

Same as `Verif.Lemmas.Api2` for the FMI 3.0 functions.
-/

namespace Verif
namespace FMI3
variable {F D : Type} {m : Model F D} {T : MFn → Prop} {P : Comp F D → Prop}

section
variable (hm : OkOrError m) (hq : Quiet m T P) {c : Comp F D} (h : P c)
include hq h

theorem begin_body {β : Type} {mask : Nat} {name : String} {stop : β} {k : Comp F D → Res F D β}
    (hk : allowed c.ctx mask = true → Body P (k c)) : Body P (begin mask name c stop k) :=
  Body.begin hq h hk

theorem fail_body {β : Type} (msg : String) (b : β) : Body P (fail c msg b) :=
  Body.fail hq h msg b

theorem invalidArg_body {β : Type} (msg : String) (b : β) :
    Body P (.ret (c.invalidArg msg, .Error, b)) := Body.fail hq h msg b

include hm

theorem getVars_body (hT : T .get) (hT' : T .calc) {t vr n v nv} :
    Body P (getVars m t c vr n v nv) := by
  refine begin_body hq h fun _ => ?_
  split
  · exact Body.ret_ok h
  · refine Body.nonNull hq h ?_
    have key : Body P (refresh m .OK c v fun c st =>
        getLoop m t vr nv n 0 c st v 0 >>- fun (c, st, (values, index)) =>
        if st = .Discard ∨ st = .Error ∨ st = .Fatal then .ret (c, st, values)
        else if t ≠ .binary ∧ index ≠ nv then fail c "Expected nValues = %zu but was %zu." values
        else .ret (c, st, values)) := by
      refine Body.refresh hm hq hT' h fun c h => ?_
      refine Body.after (Body.getLoop hm hq hT _ _ _ _ _ h) (fun c a h => ?_) (fun c _ h => ?_)
        (fun c _ h => ?_)
      · simp only [reduceCtorEq, or_self, ↓reduceIte]
        split
        · exact fail_body hq h _ _
        · exact Body.ret_ok h
      · simpa using Body.ret_discard h
      · simpa using Body.err h
    split
    · exact Body.nonNull hq h key
    · exact key

theorem setVars_body (hT : T .set) {t vr n v nv} : Body P (setVars m t c vr n v nv) := by
  refine begin_body hq h fun _ => ?_
  split
  · exact Body.ret_ok h
  · refine Body.nonNull hq h ?_
    refine Body.after (Body.setLoop hm hq hT _ _ _ _ h) (fun c _ h => ?_) (fun c _ h => ?_)
      (fun c _ h => ?_)
    · simp only [reduceCtorEq, or_self, ↓reduceIte]
      split
      · exact fail_body hq (hq.dirty true h) _ _
      · exact Body.ret_ok (hq.dirty true h)
    · simpa using Body.ret_discard h
    · simpa using Body.err h

omit h in
theorem getClockLoop_body (hT : T .getClock) {vr} (n : Nat) :
    ∀ i c v, P c → Body P (getClockLoop m vr n i c .OK v) := by
  induction n with
  | zero => intro i c v h; exact Body.ret_ok h
  | succ n ih =>
    intro i c v h
    refine Body.bind_ptr fun r _ => Body.bind_ptr fun old _ => ?_
    refine Outcome.All.bind
      (Inner.lift hm hq h hT (r := m.getClock c.ctx c.mv r old) fun _ _ _ e => .getClock e) ?_
    rintro ⟨c', s, v⟩ hc'
    exact Body.bind_ptr fun out _ => Body.call (by simpa [Inner] using hc')
      fun c _ h _ => ih _ _ _ h

omit h in
theorem getIntervalLoop_body (hT : T .getInterval) {vr} (n : Nat) :
    ∀ i c v, P c → Body P (getIntervalLoop m vr n i c .OK v) := by
  induction n with
  | zero => intro i c v h; exact Body.ret_ok h
  | succ n ih =>
    rintro i c ⟨v, q⟩ h
    refine Body.bind_ptr fun r _ => Body.bind_ptr fun oi _ => Body.bind_ptr fun oq _ => ?_
    refine Outcome.All.bind
      (Inner.lift hm hq h hT (r := m.getInterval c.ctx c.mv r oi oq) fun _ _ _ e => .getInterval e) ?_
    rintro ⟨c', s, v, q⟩ hc'
    exact Body.bind_ptr fun out _ => Body.bind_ptr fun out' _ =>
      Body.call (by simpa [Inner] using hc') fun c _ h _ => ih _ _ _ h

omit h in
theorem setClockLoop_body (hT : T .activate) {vr v} (n : Nat) :
    ∀ i c, P c → Body P (setClockLoop m vr v n i c .OK) := by
  induction n with
  | zero => intro i c h; exact Body.ret_ok h
  | succ n ih =>
    intro i c h
    refine Body.bind_ptr fun b _ => ?_
    split
    · exact Body.bind_ptr fun r _ =>
        Body.call (Inner.lift hm hq h hT fun _ _ _ e => .activate e) fun c a h _ => ih _ _ h
    · exact ih _ _ h

theorem getClock_body (hT : T .getClock) {vr n v} : Body P (getClock m c vr n v) :=
  begin_body hq h fun _ => getClockLoop_body hm hq hT _ _ _ _ h
theorem setClock_body (hT : T .activate) {vr n v} : Body P (setClock m c vr n v) :=
  begin_body hq h fun _ => setClockLoop_body hm hq hT _ _ _ h
theorem getIntervalDecimal_body (hT : T .getInterval) {vr n i q} :
    Body P (getIntervalDecimal m c vr n i q) :=
  begin_body hq h fun _ => getIntervalLoop_body hm hq hT _ _ _ _ h

omit hm in
theorem setDebugLogging_body (hf : FlagClosed P) {on n cats} :
    Body P (setDebugLogging c on n cats) :=
  begin_body hq h fun _ => Body.callLast (Inner.setDebugLogging hq hf _ _ _ h)

omit hm in
theorem getFMUState_body {s} : Body P (getFMUState c s) := begin_body hq h fun _ => Body.ret_ok h
omit hm in
theorem freeFMUState_body {s} : Body P (freeFMUState c s) := begin_body hq h fun _ => Body.ret_ok h
omit hm in
theorem serializedFMUStateSize_body {n} : Body P (serializedFMUStateSize m c n) := by
  refine begin_body hq h fun _ => ?_
  split
  · exact Body.ub
  · exact Body.ret_ok h
omit hm in
theorem serializeFMUState_body {s b n} : Body P (serializeFMUState m c s b n) := by
  refine begin_body hq h fun _ => ?_
  split
  · exact invalidArg_body hq h _ _
  · split
    · exact invalidArg_body hq h _ _
    · exact Body.bind_ptr fun _ _ => Body.ret_ok h
omit hm in
theorem deserializeFMUState_body {s b n} : Body P (deserializeFMUState m c b n s) := by
  refine begin_body hq h fun _ => ?_
  split
  · exact invalidArg_body hq h _ _
  · exact Body.bind_ptr fun _ _ => Body.ret_ok h

theorem getDirectionalDerivative_body [Arith F] (hT : T .partialDeriv) {u nu k nk dv du} :
    Body P (getDirectionalDerivative m c u nu k nk dv du) :=
  begin_body hq h fun _ => Body.derivOuter hm hq hT _ _ _ _ h
theorem getAdjointDerivative_body [Arith F] (hT : T .partialDeriv) {u nu k nk dv du} :
    Body P (getAdjointDerivative m c u nu k nk dv du) :=
  begin_body hq h fun _ => Body.derivOuter hm hq hT _ _ _ _ h

theorem getOutputDerivatives_body (hT : T .outDeriv) (hs : m.getOutputDerivative.isSome)
    {vr n o v} : Body P (getOutputDerivatives m c vr n o v) := by
  refine begin_body hq h fun _ => ?_
  split
  · next hf => exact Body.outputDerivLoop hm hq hT hf _ _ _ _ h
  · next hf => simp [hf] at hs

theorem updateDiscreteStates_body (hT : T .event) {i} : Body P (updateDiscreteStates m c i) := by
  refine begin_body hq h fun _ => ?_
  cases he : m.eventUpdate with
  | none => exact Body.ret_ok h
  | some eu =>
    exact Body.call (Inner.lift hm hq h hT fun _ _ _ e => .event he e) fun c _ h _ => Body.ret_ok h

omit hm in
theorem completedIntegratorStep_body {a b} : Body P (completedIntegratorStep c a b) :=
  begin_body hq h fun _ => Body.nonNull hq h (Body.nonNull hq h (Body.ret_ok h))

theorem setContinuousStates_body (hT : T .setStates) {x n} :
    Body P (setContinuousStates m c x n) :=
  begin_body hq h fun _ => Body.callLast (Inner.lift hm hq h hT fun _ _ _ e => .setStates e)
theorem getDerivatives_body (hT : T .deriv) {x n} : Body P (getDerivatives m c x n) :=
  begin_body hq h fun _ => Body.callLast (Inner.lift hm hq h hT fun _ _ _ e => .deriv e)
theorem getEventIndicators_body (hT : T .indicators) {x n} : Body P (getEventIndicators m c x n) :=
  begin_body hq h fun _ => Body.callLast (Inner.lift hm hq h hT fun _ _ _ e => .indicators e)
theorem getContinuousStates_body (hT : T .getStates) {x n} :
    Body P (getContinuousStates m c x n) :=
  begin_body hq h fun _ => Body.callLast (Inner.lift hm hq h hT fun _ _ _ e => .getStates e)
theorem getNominals_body (hT : T .nominals) {x n} : Body P (getNominals m c x n) :=
  begin_body hq h fun _ => Body.callLast (Inner.lift hm hq h hT fun _ _ _ e => .nominals e)
theorem activateModelPartition_body (hT : T .partition) {k t} :
    Body P (activateModelPartition m c k t) :=
  begin_body hq h fun _ => Body.callLast (Inner.lift hm hq h hT fun _ _ _ e => .partition e)

omit hm in
theorem getNumberOfEventIndicators_body {n} : Body P (getNumberOfEventIndicators m c n) := by
  refine begin_body hq h fun _ => ?_
  split
  · exact Body.ub
  · exact Body.ret_ok h
omit hm in
theorem getNumberOfContinuousStates_body {n} : Body P (getNumberOfContinuousStates m c n) := by
  refine begin_body hq h fun _ => ?_
  split
  · exact Body.ub
  · exact Body.ret_ok h

end

section
variable [Arith F] (hm : OkOrError m) (hq : SolverQuiet m P)
include hq

omit [Arith F] hq in
theorem pendingEvent_all {m : Model F D} {P : Comp F D → Prop}
    (hl : ∀ {c mv' s}, P c → MStep m .event c.ctx c.mv mv' s → P { c with mv := mv' })
    {c : Comp F D} {ehn} (h : P c) : (pendingEvent m c ehn).All fun x => P x.1 := by
  unfold pendingEvent
  split
  · simpa using h
  · next eu he =>
    split
    · refine Outcome.All.bind (R := fun x => P x.1) ?_ ?_
      · refine Outcome.All.bind Outcome.all_self ?_
        rintro ⟨mv', s, b⟩ e
        simpa using hl h (.event he e)
      · rintro ⟨c, s, b⟩ h; simpa using h
    · simpa using h

theorem doStepEnd_body {next out c ehn reached} (h : P c) :
    Body P (doStepEnd next out c .OK ehn reached) := by
  unfold doStepEnd
  split
  · exact Body.ub
  · exact Body.ret_ok (hq.ncp _ h)

include hm

theorem internalEvent_body {β : Type} {eu c} {stop : β} {k : Comp F D → Status → Res F D β}
    (he : m.eventUpdate = some eu) (h : P c) (hk : ∀ c, P c → Body P (k c .OK)) :
    Body P (internalEvent m eu c .OK stop k) := by
  unfold internalEvent
  refine Body.call (Inner.lift hm hq.toQuiet h (f := .event) (by decide) fun _ _ _ e => .event he e)
    fun c _ h _ => ?_
  split
  · refine Body.call (Inner.lift hm hq.toQuiet h (f := .indicators) (by decide)
      fun _ _ _ e => .indicators e) fun c _ h _ => hk _ (hq.prez _ h)
  · exact hk _ h

theorem doStepLoop_body {next out} (fuel : Nat) :
    ∀ c ehn, P c → Body P (doStepLoop m next out fuel c .OK ehn) := by
  induction fuel with
  | zero => intro c _ _; exact Body.hang
  | succ n ih =>
    intro c ehn h
    unfold doStepLoop
    simp only
    split
    · exact doStepEnd_body hq h
    · refine Outcome.All.bind (pendingEvent_all (fun h e => hq.lift h (by decide) e) h) ?_
      rintro ⟨c, ehn⟩ h
      refine Body.call (Inner.doFixedStep hm hq h) fun c ev h _ => ?_
      have rest : ∀ (c : Comp F D) ehn r, P c → Body P (if c.mv.terminateSimulation then
          doStepEnd next out c .OK ehn r else doStepLoop m next out n c .OK ehn) := by
        intro c ehn r h
        split
        · exact doStepEnd_body hq h
        · exact ih _ _ h
      simp only
      split
      · exact rest _ _ _ h
      · next eu he =>
        split
        · exact Body.ub
        · split
          · have early : ∀ (c : Comp F D) ehn r, P c → Body P (if c.earlyReturnAllowed then
                doStepEnd next out c .OK ehn r else if c.mv.terminateSimulation then
                doStepEnd next out c .OK ehn r else doStepLoop m next out n c .OK ehn) := by
              intro c ehn r h
              split
              · exact doStepEnd_body hq h
              · exact rest _ _ _ h
            split
            · exact early _ _ _ h
            · exact internalEvent_body hm hq he h fun c h => early _ _ _ h
          · exact rest _ _ _ h

omit hq hm [Arith F] in
theorem allowed_doStep (ctx : Ctx F) : allowed ctx MASK_DoStep = true ↔ ctx.state = .stepMode := by
  cases h : ctx.state <;> simp [allowed, h] <;> decide

omit hq in
theorem doStep_body (hq : DoQuiet m P) {fuel c ccp st out} (h : P c) : Body P (doStep m fuel c ccp st out) := by
  refine begin_body hq.toQuiet h fun ha => ?_
  have hs := (allowed_doStep _).1 ha
  split
  · exact fail_body hq.toQuiet h _ _
  · split
    · exact fail_body hq.toQuiet h _ _
    · simp only
      split
      · exact fail_body hq.toQuiet h _ _
      · split
        · exact Body.ub
        · exact (doStepLoop_body hm (hq.solver (by simp [hs])) _ _ _ ⟨h, rfl⟩).mono fun _ h => h.1

end
end FMI3
end Verif
