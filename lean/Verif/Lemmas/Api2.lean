import Verif.Lemmas.ModelEff
import Verif.History2

/-!
# Bodies of the FMI 2.0 functions

For every function that does not switch the mode by itself: it stays inside any predicate that is
closed under the `model.c` functions it calls.
-/

namespace Verif
namespace FMI2
variable {F D : Type} {m : Model F D} {T : MFn → Prop} {P : Comp F D → Prop}

section
variable (hm : OkOrError m) (hq : Quiet m T P) {c : Comp F D} (h : P c)
include hq h

theorem begin_body {β : Type} {mask : Nat} {name : String} {stop : β} {k : Comp F D → Res F D β}
    (hk : allowed c.ctx mask = true → Body P (k c)) : Body P (begin mask name c stop k) :=
  Body.begin hq h hk

theorem fail_body {β : Type} (msg : String) (b : β) : Body P (fail c msg b) :=
  Body.fail hq h msg b

theorem invalidArg_body {β : Type} (msg : String) (b : β) :
    Body P (.ret (c.invalidArg msg, .Error, b)) := Body.fail hq h msg b

include hm

theorem getVariables_body (hT : T .get) (hT' : T .calc) {t vr n v} :
    Body P (getVariables m t vr n v c) := by
  unfold getVariables
  split
  · exact Body.ret_ok h
  · refine Body.nonNull hq h (Body.nonNull hq h (Body.refresh hm hq hT' h fun c h => ?_))
    exact Body.after (Body.getLoop hm hq hT _ _ _ _ _ h) (fun _ _ h => Body.ret_ok h)
      (fun _ _ h => Body.ret_discard h) (fun _ _ h => Body.err h)

theorem setVariables_body (hT : T .set) {t vr n v} : Body P (setVariables m t vr n v c) := by
  unfold setVariables
  split
  · exact Body.ret_ok h
  · refine Body.nonNull hq h (Body.nonNull hq h ?_)
    refine Body.after (Body.setLoop hm hq hT _ _ _ _ h) (fun c _ h => ?_) (fun c _ h => ?_)
      (fun c _ h => ?_)
    · simpa using Body.ret_ok (hq.dirty true h)
    · simpa using Body.ret_discard h
    · simpa using Body.err h

omit h in
theorem getBooleanLoop_body (hT : T .get) {vr nvr} (n : Nat) :
    ∀ i c v, P c → Body P (getBooleanLoop m vr nvr n i c .OK v) := by
  induction n with
  | zero => intro i c v h; exact Body.ret_ok h
  | succ n ih =>
    intro i c v h
    exact Body.bind_ptr fun r _ => Body.call (Inner.lift hm hq h hT fun _ _ _ e => .get e)
      fun c a h _ => Body.bind_ptr fun _ _ => Body.bind_ptr fun _ _ => ih _ _ _ h

omit h in
theorem setBooleanLoop_body (hT : T .set) {vr nvr v} (n : Nat) :
    ∀ i c, P c → Body P (setBooleanLoop m vr nvr v n i c .OK) := by
  induction n with
  | zero => intro i c h; exact Body.ret_ok h
  | succ n ih =>
    intro i c h
    exact Body.bind_ptr fun _ _ => Body.bind_ptr fun r _ =>
      Body.call (Inner.lift hm hq h hT fun _ _ _ e => .set e) fun c a h _ => ih _ _ h

theorem getReal_body (hT : T .get) (hT' : T .calc) {vr n v} : Body P (getReal m c vr n v) :=
  begin_body hq h fun _ => getVariables_body hm hq h hT hT'
theorem getInteger_body (hT : T .get) (hT' : T .calc) {vr n v} : Body P (getInteger m c vr n v) :=
  begin_body hq h fun _ => getVariables_body hm hq h hT hT'
theorem getString_body (hT : T .get) (hT' : T .calc) {vr n v} : Body P (getString m c vr n v) :=
  begin_body hq h fun _ => getVariables_body hm hq h hT hT'
theorem getBoolean_body (hT : T .get) {vr n v} : Body P (getBoolean m c vr n v) :=
  begin_body hq h fun _ => getBooleanLoop_body hm hq hT _ _ _ _ h
theorem setReal_body (hT : T .set) {vr n v} : Body P (setReal m c vr n v) :=
  begin_body hq h fun _ => setVariables_body hm hq h hT
theorem setInteger_body (hT : T .set) {vr n v} : Body P (setInteger m c vr n v) :=
  begin_body hq h fun _ => setVariables_body hm hq h hT
theorem setString_body (hT : T .set) {vr n v} : Body P (setString m c vr n v) :=
  begin_body hq h fun _ => setVariables_body hm hq h hT
theorem setBoolean_body (hT : T .set) {vr n v} : Body P (setBoolean m c vr n v) :=
  begin_body hq h fun _ => setBooleanLoop_body hm hq hT _ _ _ h

omit hm in
theorem setDebugLogging_body (hf : FlagClosed P) {on n cats} :
    Body P (setDebugLogging c on n cats) :=
  begin_body hq h fun _ => Body.callLast (Inner.setDebugLogging hq hf _ _ _ h)

omit hm in
theorem getFMUstate_body {s} : Body P (getFMUstate c s) := begin_body hq h fun _ => Body.ret_ok h
omit hm in
theorem freeFMUstate_body {s} : Body P (freeFMUstate c s) := begin_body hq h fun _ => Body.ret_ok h
omit hm in
theorem serializedFMUstateSize_body {n} : Body P (serializedFMUstateSize m c n) := by
  refine begin_body hq h fun _ => ?_
  split
  · exact Body.ub
  · exact Body.ret_ok h
omit hm in
theorem serializeFMUstate_body {s b n} : Body P (serializeFMUstate m c s b n) := by
  refine begin_body hq h fun _ => ?_
  split
  · exact invalidArg_body hq h _ _
  · split
    · exact invalidArg_body hq h _ _
    · exact Body.bind_ptr fun _ _ => Body.ret_ok h
omit hm in
theorem deSerializeFMUstate_body {s b n} : Body P (deSerializeFMUstate m c b n s) := by
  refine begin_body hq h fun _ => ?_
  split
  · exact invalidArg_body hq h _ _
  · exact Body.bind_ptr fun _ _ => Body.ret_ok h

theorem getDirectionalDerivative_body [Arith F] (hT : T .partialDeriv) {u nu k nk dv du} :
    Body P (getDirectionalDerivative m c u nu k nk dv du) :=
  begin_body hq h fun _ => Body.derivOuter hm hq hT _ _ _ _ h

omit hm in
theorem setRealInputDerivatives_body : Body P (setRealInputDerivatives c) :=
  begin_body hq h fun _ => fail_body hq h _ _
theorem getRealOutputDerivatives_body (hT : T .outDeriv) {vr n o v} :
    Body P (getRealOutputDerivatives m c vr n o v) := by
  refine begin_body hq h fun _ => ?_
  split
  · next hf => exact Body.outputDerivLoop hm hq hT hf _ _ _ _ h
  · exact fail_body hq h _ _
omit hm in
theorem cancelStep_body : Body P (cancelStep c) := begin_body hq h fun _ => fail_body hq h _ _

omit hm in
theorem getStatusAux_inner {s} : Inner P (getStatusAux c s) := by
  unfold getStatusAux
  split
  · exact Inner.ret_discard (hq.log _ h)
  · exact Inner.ret_discard (hq.log _ h)
  · exact Inner.ret_discard (hq.log _ h)
  · exact Inner.ret_discard (hq.log _ h)
  · exact Inner.ret_discard h
omit hm in
theorem getStatus_body {s} : Body P (getStatus c s) :=
  begin_body hq h fun _ => Body.callLast (getStatusAux_inner hq h)
omit hm in
theorem getIntegerStatus_body {s} : Body P (getIntegerStatus c s) :=
  begin_body hq h fun _ => Body.callLast (getStatusAux_inner hq h)
omit hm in
theorem getStringStatus_body {s} : Body P (getStringStatus c s) :=
  begin_body hq h fun _ => Body.callLast (getStatusAux_inner hq h)
omit hm in
theorem getRealStatus_body {s v} : Body P (getRealStatus c s v) := by
  refine begin_body hq h fun _ => ?_
  split
  · split
    · exact Body.ub
    · exact Body.ret_ok h
  · exact Body.callLast (getStatusAux_inner hq h)
omit hm in
theorem getBooleanStatus_body {s v} : Body P (getBooleanStatus c s v) := by
  refine begin_body hq h fun _ => ?_
  split
  · split
    · exact Body.ub
    · exact Body.ret_ok h
  · exact Body.callLast (getStatusAux_inner hq h)

theorem newDiscreteStates_body (hT : T .event) {i} : Body P (newDiscreteStates m c i) := by
  refine begin_body hq h fun _ => ?_
  have k : ∀ c, P c → Body P (match i with
      | none => Outcome.ub
      | some _ => .ret (c, Status.OK, some c.mv.eventInfo)) := by
    intro c h
    split
    · exact Body.ub
    · exact Body.ret_ok h
  cases he : m.eventUpdate with
  | none => exact k _ h
  | some eu =>
    exact Body.call (Inner.lift hm hq h hT fun _ _ _ e => .event he e) fun c _ h _ => k c h

omit hm in
theorem completedIntegratorStep_body {a b} : Body P (completedIntegratorStep c a b) := by
  refine begin_body hq h fun _ => ?_
  split
  · exact invalidArg_body hq h _ _
  · exact Body.ret_ok h

theorem setContinuousStates_body (hT : T .setStates) {x n} :
    Body P (setContinuousStates m c x n) :=
  begin_body hq h fun _ => Body.callLast (Inner.lift hm hq h hT fun _ _ _ e => .setStates e)
theorem getDerivatives_body (hT : T .deriv) {x n} : Body P (getDerivatives m c x n) :=
  begin_body hq h fun _ => Body.callLast (Inner.lift hm hq h hT fun _ _ _ e => .deriv e)
theorem getEventIndicators_body (hT : T .indicators) {x n} : Body P (getEventIndicators m c x n) :=
  begin_body hq h fun _ => Body.callLast (Inner.lift hm hq h hT fun _ _ _ e => .indicators e)
theorem getContinuousStates_body (hT : T .getStates) {x n} :
    Body P (getContinuousStates m c x n) :=
  begin_body hq h fun _ => Body.callLast (Inner.lift hm hq h hT fun _ _ _ e => .getStates e)
theorem getNominals_body (hT : T .nominals) {x n} : Body P (getNominals m c x n) :=
  begin_body hq h fun _ => Body.callLast (Inner.lift hm hq h hT fun _ _ _ e => .nominals e)

end

section
variable [Arith F] (hm : OkOrError m) (hq : SolverQuiet m P)
include hm hq

theorem handleEvents_body {β : Type} {c ev} {stop : β} {k : Comp F D → Status → Res F D β} (h : P c)
    (hk : ∀ c, P c → Body P (k c .OK)) : Body P (handleEvents m c .OK ev stop k) := by
  unfold handleEvents
  split
  · exact hk _ h
  · next eu he =>
    split
    · exact Body.ub
    · split
      · exact Body.call (Inner.lift hm hq.toQuiet h (f := .event) (by decide)
          fun _ _ _ e => .event he e) fun c _ h _ => hk c h
      · exact hk _ h

theorem doStepLoop_body {next} (fuel : Nat) : ∀ c, P c → Body P (doStepLoop m next fuel c .OK) := by
  induction fuel with
  | zero => intro c _; exact Body.hang
  | succ n ih =>
    intro c h
    unfold doStepLoop
    simp only
    split
    · exact Body.ret_ok (hq.ncp _ h)
    · refine Body.call (Inner.doFixedStep hm hq h) fun c ev h _ => ?_
      refine handleEvents_body hm hq h fun c h => ?_
      split
      · exact Body.ret_discard h
      · exact ih c h

omit hq hm [Arith F] in
theorem allowed_doStep (ctx : Ctx F) : allowed ctx MASK_DoStep = true ↔ ctx.state = .stepComplete := by
  cases h : ctx.state <;> simp [allowed, h] <;> decide

omit hq in
theorem doStep_body (hq : DoQuiet m P) {fuel c ccp st} (h : P c) : Body P (doStep m fuel c ccp st) := by
  refine begin_body hq.toQuiet h fun ha => ?_
  have hs := (allowed_doStep _).1 ha
  split
  · exact fail_body hq.toQuiet h _ _
  · split
    · exact fail_body hq.toQuiet h _ _
    · simp only
      split
      · exact fail_body hq.toQuiet h _ _
      · exact (doStepLoop_body hm (hq.solver (by simp [hs])) _ _ ⟨h, rfl⟩).mono fun _ h => h.1

end
end FMI2
end Verif
