import Verif.Lemmas.Api3

/-!
# Histories of FMI 3.0 calls: generic results

Same as `Verif.Lemmas.Hist2`.
-/

set_option linter.unusedSectionVars false

namespace Verif
namespace FMI3
variable {F D : Type} {m : Model F D} {P : Comp F D → Prop}

/-- Functions that have a mode or time change of their own. -/
def Op.switches : Op F → Bool
  | .enterInitializationMode .. | .exitInitializationMode | .enterEventMode | .terminate | .reset
  | .setFMUState .. | .enterConfigurationMode | .exitConfigurationMode | .enterContinuousTimeMode
  | .setTime .. | .enterStepMode => true
  | _ => false

/-- The calls that report `Error` without terminating the instance. -/
def Op.unsupported (m : Model F D) : Op F → Bool
  | .notImplemented _ => true
  | .getOutputDerivatives .. => m.getOutputDerivative.isNone
  | _ => false

/-- Result of a call that stays inside `P`. -/
def BodyRes (P : Comp F D → Prop) (x : World F D × Status × Out F) : Prop :=
  (x.2.1 = .OK ∨ x.2.1 = .Discard) ∧ P x.1.inst ∨
    x.2.1 = .Error ∧ ∃ c, P c ∧ x.1.inst = c.setState .terminated

theorem run_body {β : Type} {w : World F D} {r : Res F D β} {out : β → Out F} (h : Body P r) :
    (w.run r out).All (BodyRes P) :=
  Outcome.All.bind h fun _ h => Outcome.all_ret.2 h
theorem runSlot_body {w : World F D} {i r} (h : Body P r) : (w.runSlot i r).All (BodyRes P) :=
  Outcome.All.bind h fun _ h => Outcome.all_ret.2 h
theorem runBuf_body {w : World F D} {i r} (h : Body P r) : (w.runBuf i r).All (BodyRes P) :=
  Outcome.All.bind h fun _ h => Outcome.all_ret.2 h

variable [Arith F] [HasInf F]

/-- The functions of `model.c` an API function calls (for the functions that switch neither mode nor
time, `ExitInitializationMode` and `ExitConfigurationMode`). -/
def Fn.calls : Fn → List MFn
  | .get _ => [.get, .calc]
  | .set _ => [.set]
  | .getClock => [.getClock]
  | .setClock => [.activate]
  | .getDirectionalDerivative | .getAdjointDerivative => [.partialDeriv]
  | .getOutputDerivatives => [.outDeriv]
  | .getIntervalDecimal => [.getInterval]
  | .updateDiscreteStates => [.event]
  | .setContinuousStates => [.setStates]
  | .getDerivatives => [.deriv]
  | .getEventIndicators => [.indicators]
  | .getContinuousStates => [.getStates]
  | .getNominals => [.nominals]
  | .activateModelPartition => [.partition]
  | .exitInitializationMode => [.calc, .indicators]
  | .exitConfigurationMode => [.indicators]
  | _ => []

/-- Functions that switch neither mode nor time and make no solver step. -/
theorem step_quietT {T : MFn → Prop} (hm : OkOrError m) (hQ : Quiet m T P) {fuel : Nat}
    {w : World F D} {op : Op F} (hf : op.fn = .setDebugLogging → FlagClosed P) (h : P w.inst) (hT : ∀ f ∈ op.fn.calls, T f) (hop : op.switches = false) (hd : op.fn ≠ .doStep)
    (hu : op.unsupported m = false) :
    (step m fuel w op).All (BodyRes P) := by
  cases op <;> simp only [Op.switches, Bool.true_eq_false] at hop <;> simp only [step]
  case setDebugLogging => exact run_body (setDebugLogging_body hQ h (hf rfl))
  case get => exact run_body (getVars_body hm hQ h (hT _ (by simp [Op.fn, Fn.calls])) (hT _ (by simp [Op.fn, Fn.calls])))
  case getClock => exact run_body (getClock_body hm hQ h (hT _ (by simp [Op.fn, Fn.calls])))
  case set => exact run_body (setVars_body hm hQ h (hT _ (by simp [Op.fn, Fn.calls])))
  case setClock => exact run_body (setClock_body hm hQ h (hT _ (by simp [Op.fn, Fn.calls])))
  case getFMUState => exact runSlot_body (getFMUState_body hQ h)
  case freeFMUState => exact runSlot_body (freeFMUState_body hQ h)
  case serializedFMUStateSize => exact run_body (serializedFMUStateSize_body hQ h)
  case serializeFMUState => exact runBuf_body (serializeFMUState_body hQ h)
  case deserializeFMUState => exact runSlot_body (deserializeFMUState_body hQ h)
  case getDirectionalDerivative => exact run_body (getDirectionalDerivative_body hm hQ h (hT _ (by simp [Op.fn, Fn.calls])))
  case getAdjointDerivative => exact run_body (getAdjointDerivative_body hm hQ h (hT _ (by simp [Op.fn, Fn.calls])))
  case getIntervalDecimal => exact run_body (getIntervalDecimal_body hm hQ h (hT _ (by simp [Op.fn, Fn.calls])))
  case updateDiscreteStates => exact run_body (updateDiscreteStates_body hm hQ h (hT _ (by simp [Op.fn, Fn.calls])))
  case completedIntegratorStep => exact run_body (completedIntegratorStep_body hQ h)
  case setContinuousStates => exact run_body (setContinuousStates_body hm hQ h (hT _ (by simp [Op.fn, Fn.calls])))
  case getDerivatives => exact run_body (getDerivatives_body hm hQ h (hT _ (by simp [Op.fn, Fn.calls])))
  case getEventIndicators => exact run_body (getEventIndicators_body hm hQ h (hT _ (by simp [Op.fn, Fn.calls])))
  case getContinuousStates => exact run_body (getContinuousStates_body hm hQ h (hT _ (by simp [Op.fn, Fn.calls])))
  case getNominals => exact run_body (getNominals_body hm hQ h (hT _ (by simp [Op.fn, Fn.calls])))
  case getNumberOfEventIndicators => exact run_body (getNumberOfEventIndicators_body hQ h)
  case getNumberOfContinuousStates => exact run_body (getNumberOfContinuousStates_body hQ h)
  case getOutputDerivatives =>
    refine run_body (getOutputDerivatives_body hm hQ h (hT _ (by simp [Op.fn, Fn.calls])) ?_)
    simpa [Op.unsupported] using hu
  case doStep => exact absurd rfl hd
  case activateModelPartition => exact run_body (activateModelPartition_body hm hQ h (hT _ (by simp [Op.fn, Fn.calls])))
  case notImplemented => simp [Op.unsupported] at hu

/-- The same for all functions of `model.c`. -/
theorem step_quiet (hm : OkOrError m) (hQ : Quiet m (fun _ => True) P) {fuel : Nat}
    {w : World F D} {op : Op F} (hf : op.fn = .setDebugLogging → FlagClosed P) (h : P w.inst) (hop : op.switches = false) (hd : op.fn ≠ .doStep)
    (hu : op.unsupported m = false) :
    (step m fuel w op).All (BodyRes P) :=
  step_quietT hm hQ hf h (fun _ _ => trivial) hop hd hu

theorem step_do (hm : OkOrError m) (hq : DoQuiet m P) {fuel : Nat} {w : World F D} {op : Op F} (h : P w.inst)
    (hd : op.fn = .doStep) : (step m fuel w op).All (BodyRes P) := by
  cases op <;> simp only [Op.fn, reduceCtorEq] at hd
  simp only [step]
  exact run_body (doStep_body hm hq h)

theorem step_body (hm : OkOrError m) (hq : StepQuiet m P) {fuel : Nat}
    {w : World F D} {op : Op F} (hf : op.fn = .setDebugLogging → FlagClosed P) (h : P w.inst) (hop : op.switches = false)
    (hu : op.unsupported m = false) :
    (step m fuel w op).All (BodyRes P) := by
  by_cases hd : op.fn = .doStep
  · cases op <;> simp only [Op.fn, reduceCtorEq] at hd
    simp only [step]
    exact run_body (doStep_body hm hq.toDo h)
  · exact step_quiet hm hq.toQuiet hf h hop hd hu

omit [Arith F] [HasInf F] in
theorem allowed_any (ctx : Ctx F) : allowed ctx MASK_AnyState = true ↔
    ctx.state ∈ [Mode.startAndEnd, .configurationMode, .instantiated, .initializationMode, .eventMode,
      .continuousTimeMode, .stepMode, .clockActivationMode, .stepDiscarded, .reconfigurationMode,
      .intermediateUpdateMode, .terminated] := by
  cases h : ctx.state <;> simp [allowed, h] <;> decide

omit [Arith F] [HasInf F] in
theorem allowed_inst (ctx : Ctx F) :
    allowed ctx (mask [.instantiated]) = true ↔ ctx.state = .instantiated := by
  cases h : ctx.state <;> simp [allowed, h] <;> decide
omit [Arith F] [HasInf F] in
theorem allowed_init (ctx : Ctx F) :
    allowed ctx (mask [.initializationMode]) = true ↔ ctx.state = .initializationMode := by
  cases h : ctx.state <;> simp [allowed, h] <;> decide
omit [Arith F] [HasInf F] in
theorem allowed_event (ctx : Ctx F) :
    allowed ctx (mask [.eventMode]) = true ↔ ctx.state = .eventMode := by
  cases h : ctx.state <;> simp [allowed, h] <;> decide
omit [Arith F] [HasInf F] in
theorem allowed_eventCT (ctx : Ctx F) : allowed ctx (mask [.eventMode, .continuousTimeMode]) = true ↔
    ctx.state = .eventMode ∨ ctx.state = .continuousTimeMode := by
  cases h : ctx.state <;> simp [allowed, h] <;> decide
omit [Arith F] [HasInf F] in
theorem allowed_CTstep (ctx : Ctx F) : allowed ctx (mask [.continuousTimeMode, .stepMode]) = true ↔
    ctx.state = .continuousTimeMode ∨ ctx.state = .stepMode := by
  cases h : ctx.state <;> simp [allowed, h] <;> decide
omit [Arith F] [HasInf F] in
theorem allowed_initEvent (ctx : Ctx F) :
    allowed ctx (mask [.initializationMode, .eventMode]) = true ↔
    ctx.state = .initializationMode ∨ ctx.state = .eventMode := by
  cases h : ctx.state <;> simp [allowed, h] <;> decide
omit [Arith F] [HasInf F] in
theorem allowed_enterConfig (ctx : Ctx F) : allowed ctx MASK_EnterConfigurationMode = true ↔
    ctx.state ∈ [Mode.instantiated, .stepMode, .eventMode, .clockActivationMode] := by
  cases h : ctx.state <;> simp [allowed, h] <;> decide
omit [Arith F] [HasInf F] in
theorem allowed_exitConfig (ctx : Ctx F) : allowed ctx MASK_ExitConfigurationMode = true ↔
    ctx.state ∈ [Mode.configurationMode, .reconfigurationMode] := by
  cases h : ctx.state <;> simp [allowed, h] <;> decide

/-- A property of the instance that calls keep, given that stored states have the property `S`.
Nothing is said about `SetDebugLogging`, `ExitInitializationMode` and `EnterStepMode`. -/
structure CallInv₀ (m : Model F D) (S P : Comp F D → Prop) : Prop extends StepQuiet m P where
  term : ∀ {c}, P c → P (c.setState .terminated)
  enterInit : ∀ {c} a b, P c → c.ctx.state = .instantiated →
    P { (c.setTime a).setState .initializationMode with
      startTime := a, stopTime := b, nextCommunicationPoint := a }
  enterConfig : ∀ {c}, P c →
    c.ctx.state ∈ [Mode.instantiated, .stepMode, .eventMode, .clockActivationMode] →
    P (c.setState (if c.ctx.state = .instantiated then .configurationMode else .reconfigurationMode))
  exitConfig : ∀ {c}, P c → c.ctx.state ∈ [Mode.configurationMode, .reconfigurationMode] →
    P (c.setState (stateAfterConfig c))
  reset : ∀ {c}, P c → (Verif.reset m c).All fun x => P x.1
  restore : ∀ {c s}, P c → S s → P (Verif.setFMUState m c s)
  enterEvent : ∀ {c}, P c → c.ctx.state = .continuousTimeMode ∨ c.ctx.state = .stepMode →
    P (c.setState .eventMode)
  enterCT : ∀ {c}, P c → c.ctx.state = .eventMode → P (c.setState .continuousTimeMode)
  setTime : ∀ {c} t, P c → c.ctx.state = .eventMode ∨ c.ctx.state = .continuousTimeMode →
    P (c.setTime t)

/-- A property of the instance that calls keep, also `ExitInitializationMode` and `EnterStepMode`. -/
structure CallInv (m : Model F D) (S P : Comp F D → Prop) : Prop extends CallInv₀ m S P where
  exitInit : ∀ {c}, P c → c.ctx.state = .initializationMode → P (c.setState (stateAfterInit c))
  enterStep : ∀ {c}, P c → c.ctx.state = .initializationMode ∨ c.ctx.state = .eventMode →
    P (c.setState .stepMode)

/-- An invariant of histories of calls. -/
structure HistInv (m : Model F D) (P : Comp F D → Prop) : Prop extends CallInv m P P where
  flags : ∀ {c : Comp F D} (a b : Bool), P c →
    P { c with ctx := { c.ctx with logEvents := a, logErrors := b } }

/-- An invariant of histories of calls; nothing is said about `ExitInitializationMode` and `EnterStepMode`. -/
structure HistInv₀ (m : Model F D) (P : Comp F D → Prop) : Prop extends CallInv₀ m P P where
  flags : ∀ {c : Comp F D} (a b : Bool), P c →
    P { c with ctx := { c.ctx with logEvents := a, logErrors := b } }

/-- The invariant for a whole world: also for saved and serialised states. -/
structure WInv (P : Comp F D → Prop) (w : World F D) : Prop where
  inst : P w.inst
  slots : ∀ i s, w.slots i = some s → P s
  bufs : ∀ i b s, w.bufs i = some b → b.image = some s → P s

omit [Arith F] [HasInf F] in
theorem WInv.fresh {c : Comp F D} (h : P c) : WInv P (World.fresh c) :=
  ⟨h, fun _ _ e => by simp [World.fresh] at e, fun _ _ _ e => by simp [World.fresh] at e⟩

omit [HasInf F] in
theorem Quiet.and_state {T : MFn → Prop} (hq : Quiet m T P) (s : Mode) (t : IType) :
    Quiet m T fun c => P c ∧ c.ctx.state = s ∧ c.ctx.typ = t where
  lift h hT e := ⟨hq.lift h.1 hT e, h.2⟩
  log msg h := ⟨hq.log msg h.1, h.2⟩
  dirty b h := ⟨hq.dirty b h.1, h.2⟩

/-- Result of `Body` when `P` also survives termination. -/
theorem Body.all {β : Type} (ht : ∀ {c}, P c → P (c.setState .terminated)) {r : Res F D β}
    (h : Body P r) : r.All fun x => P x.1 :=
  Outcome.All.mono h fun x h => by
    rcases h with ⟨_, h⟩ | ⟨_, c, h, e⟩
    · exact h
    · rw [e]; exact ht h

theorem exitInitializationMode_all {S : Comp F D → Prop} (hm : OkOrError m) (hi : CallInv m S P) {c : Comp F D} (h : P c) :
    (exitInitializationMode m c).All fun x => P x.1 := by
  unfold exitInitializationMode begin beginFunction
  split
  · next ha =>
    have hs := (allowed_init _).1 ha
    unfold refresh
    have fin : ∀ c : Comp F D, P c → c.ctx.state = .initializationMode →
        Outcome.All (call .OK (configurate m (c.setState (stateAfterInit c))) id
          fun c st _ => .ret (c, st, ())) fun x => P x.1 := by
      intro c h hs
      have := Body.callLast (out := id) (Inner.configurate hm hi.toConfQuiet (hi.exitInit h hs))
      exact Body.all hi.term this
    simp only []
    split
    · have q := Quiet.and_state hi.toQuiet .initializationMode c.ctx.typ
      have := Inner.lift hm q (c := c) ⟨h, hs, rfl⟩ (f := .calc) trivial
        (r := m.calculateValues c.ctx c.mv) fun _ _ _ e => .calc e
      refine Outcome.All.bind this ?_
      rintro ⟨c, s, a⟩ ⟨hs, hp, hst, _⟩
      simp only at hs hp hst
      rcases hs with rfl | rfl | rfl
      · exact fin _ (hi.dirty false hp) hst
      · simpa [Status.rank] using hp
      · simpa [Status.rank] using hi.term hp
    · exact fin c h hs
  · simpa using hi.term (hi.log _ h)

/-- Every call other than `SetDebugLogging` keeps a property of the instance. -/
theorem step_keep₀ {S : Comp F D → Prop} (hm : OkOrError m) (hi : CallInv₀ m S P) {fuel : Nat}
    {w : World F D} (hS : ∀ i s, w.slots i = some s → S s) (h : P w.inst) {op : Op F}
    (hf : op.fn = .setDebugLogging → FlagClosed P)
    (hx : op.fn = .exitInitializationMode ∨ op.fn = .enterStepMode → (step m fuel w op).All fun x => P x.1.inst) :
    (step m fuel w op).All fun x => P x.1.inst := by
  have keep : ∀ {β : Type} {r : Res F D β} {out : β → Out F}, r.All (fun x => P x.1) →
      (w.run r out).All fun x => P x.1.inst := fun hr =>
    Outcome.All.bind hr fun x hx => Outcome.all_ret.2 hx
  have term := @hi.term
  have log := @hi.log
  have begin_all : ∀ {β : Type} {mask : Nat} {name : String} {stop : β} {k : Comp F D → Res F D β},
      (allowed w.inst.ctx mask = true → (k w.inst).All fun x => P x.1) →
      (begin mask name w.inst stop k).All fun x => P x.1 := by
    intro β mask name stop k hk
    unfold begin beginFunction
    split
    · next ha => exact hk ha
    · simpa using term (log _ h)
  by_cases hop : op.switches = false ∧ op.unsupported m = false
  · refine (step_body hm hi.toStepQuiet hf h hop.1 hop.2).mono fun x hx => ?_
    rcases hx with ⟨_, h⟩ | ⟨_, c, h, e⟩
    · exact h
    · rw [e]; exact hi.term h
  · cases op <;> simp only [Op.switches, Op.unsupported, step] at hop ⊢ <;>
      try (exfalso; simp at hop; done)
    case enterInitializationMode a d b =>
      exact keep (begin_all fun ha => by
        simpa using hi.enterInit _ _ h ((allowed_inst _).1 ha))
    case exitInitializationMode => exact hx (by simp [Op.fn])
    case terminate => exact keep (begin_all fun ha => by simpa using term h)
    case reset =>
      refine keep (begin_all fun ha => ?_)
      have := hi.reset h
      unfold Verif.reset at this ⊢
      simpa [callLast, call, Status.rank] using this
    case setFMUState i =>
      refine keep (begin_all fun ha => ?_)
      cases e : w.slots i with
      | none => simpa [callLast, call, Status.rank] using term (log _ h)
      | some s => simpa [callLast, call, Status.rank] using hi.restore h (hS _ _ e)
    case enterEventMode =>
      exact keep (begin_all fun ha => by simpa using hi.enterEvent h ((allowed_CTstep _).1 ha))
    case enterContinuousTimeMode =>
      exact keep (begin_all fun ha => by simpa using hi.enterCT h ((allowed_event _).1 ha))
    case enterStepMode => exact hx (by simp [Op.fn])
    case setTime t =>
      exact keep (begin_all fun ha => by simpa using hi.setTime t h ((allowed_eventCT _).1 ha))
    case enterConfigurationMode =>
      exact keep (begin_all fun ha => by
        simpa using hi.enterConfig h ((allowed_enterConfig _).1 ha))
    case exitConfigurationMode =>
      refine keep (begin_all fun ha => ?_)
      have hc := hi.exitConfig h ((allowed_exitConfig _).1 ha)
      simp only
      split
      · exact Body.all hi.term (Body.callLast (Inner.configurate hm hi.toConfQuiet hc))
      · simpa using hc
    case getOutputDerivatives =>
      refine keep (begin_all fun ha => ?_)
      split
      · next hf =>
        exact Body.all hi.term
          (Body.outputDerivLoop hm hi.toQuiet (f := _) (by trivial) hf _ _ _ _ h)
      · simpa [notImplemented] using log _ h
    case notImplemented => exact keep (by simpa [notImplemented] using log _ h)

theorem exits_keep {S : Comp F D → Prop} (hm : OkOrError m) (hi : CallInv m S P) {fuel : Nat}
    {w : World F D} (h : P w.inst) {op : Op F} (hx : op.fn = .exitInitializationMode ∨ op.fn = .enterStepMode) :
    (step m fuel w op).All fun x => P x.1.inst := by
  have keep : ∀ {β : Type} {r : Res F D β} {out : β → Out F}, r.All (fun x => P x.1) →
      (w.run r out).All fun x => P x.1.inst := fun hr =>
    Outcome.All.bind hr fun x hx => Outcome.all_ret.2 hx
  cases op <;> simp only [Op.fn, reduceCtorEq, or_self] at hx <;> simp only [step]
  case exitInitializationMode => exact keep (exitInitializationMode_all hm hi h)
  case enterStepMode =>
    refine keep ?_
    unfold enterStepMode begin beginFunction
    split
    · next ha => simpa using hi.enterStep h ((allowed_initEvent _).1 ha)
    · simpa using hi.term (hi.log _ h)

/-- Every call other than `SetDebugLogging` keeps a property of the instance. -/
theorem step_keep {S : Comp F D → Prop} (hm : OkOrError m) (hi : CallInv m S P) {fuel : Nat}
    {w : World F D} (hS : ∀ i s, w.slots i = some s → S s) (h : P w.inst) {op : Op F}
    (hf : op.fn = .setDebugLogging → FlagClosed P) :
    (step m fuel w op).All fun x => P x.1.inst :=
  step_keep₀ hm hi.toCallInv₀ hS h hf (exits_keep hm hi h)

theorem step_inv₀ (hm : OkOrError m) (hi : HistInv₀ m P) {fuel : Nat} {w : World F D}
    (h : WInv P w) (op : Op F)
    (hx : op.fn = .exitInitializationMode ∨ op.fn = .enterStepMode → (step m fuel w op).All fun x => P x.1.inst) :
    (step m fuel w op).All fun x => WInv P x.1 := by
  have keep' : ∀ {β : Type} {r : Res F D β} {out : β → Out F},
      (w.run r out).All (fun x => P x.1.inst) → (w.run r out).All fun x => WInv P x.1 := by
    intro β r out hr x e
    have := hr x e
    obtain ⟨y, -, e⟩ := Outcome.bind_eq_ret.1 e
    cases e
    exact ⟨this, h.slots, h.bufs⟩
  have keep : ∀ {β : Type} {r : Res F D β} {out : β → Out F}, r.All (fun x => P x.1) →
      (w.run r out).All fun x => WInv P x.1 := fun hr =>
    Outcome.All.bind hr fun x hx => Outcome.all_ret.2 ⟨hx, h.slots, h.bufs⟩
  have slot : ∀ {i r}, r.All (fun (x : Comp F D × Status × Option (Comp F D)) =>
      P x.1 ∧ ∀ s, x.2.2 = some s → P s) → (w.runSlot i r).All fun x => WInv P x.1 := by
    intro i r hr
    refine Outcome.All.bind hr ?_
    rintro ⟨c, s, v⟩ ⟨h1, h2⟩
    refine Outcome.all_ret.2 ⟨h1, ?_, h.bufs⟩
    intro j s e
    simp only at e
    split at e
    · exact h2 s e
    · exact h.slots j s e
  have term := @hi.term
  have log := @hi.log
  have begin_all : ∀ {β : Type} {mask : Nat} {name : String} {stop : β} {k : Comp F D → Res F D β},
      (allowed w.inst.ctx mask = true → (k w.inst).All fun x => P x.1) →
      (begin mask name w.inst stop k).All fun x => P x.1 := by
    intro β mask name stop k hk
    unfold begin beginFunction
    split
    · next ha => exact hk ha
    · simpa using term (log _ h.inst)
  by_cases hop : op.switches = false ∧ op.unsupported m = false ∧
      ∀ i, op ≠ .getFMUState i ∧ op ≠ .freeFMUState i ∧
      (∀ b n, op ≠ .serializeFMUState i b n ∧ op ≠ .deserializeFMUState b n i)
  · have hb := step_body hm hi.toStepQuiet (fun _ => @hi.flags) h.inst hop.1 hop.2.1
      (fuel := fuel)
    have hP := hb.mono (Q' := fun x => P x.1.inst) fun x hx => by
      rcases hx with ⟨_, h⟩ | ⟨_, c, h, e⟩
      · exact h
      · rw [e]; exact hi.term h
    have sl : (step m fuel w op).All fun x => x.1.slots = w.slots ∧ x.1.bufs = w.bufs := by
      have := hop.2.2
      cases op <;> simp only [step, World.run] <;>
        first
        | exact Outcome.All.bind Outcome.all_true fun _ _ => Outcome.all_ret.2 ⟨rfl, rfl⟩
        | simp at this
        | (exfalso; simp at this; exact absurd rfl (this _ _ _))
    intro x e
    have h1 := hP x e
    have h2 := sl x e
    exact ⟨h1, h2.1 ▸ h.slots, h2.2 ▸ h.bufs⟩
  · cases op <;> simp only [Op.switches, Op.unsupported, step] at hop ⊢ <;>
      try (exfalso; simp at hop; done)
    case enterInitializationMode a d b =>
      exact keep (begin_all fun ha => by
        simpa using hi.enterInit _ _ h.inst ((allowed_inst _).1 ha))
    case exitInitializationMode => exact keep' (hx (by simp [Op.fn]))
    case terminate => exact keep (begin_all fun ha => by simpa using term h.inst)
    case reset =>
      refine keep (begin_all fun ha => ?_)
      have := hi.reset h.inst
      unfold Verif.reset at this ⊢
      simpa [callLast, call, Status.rank] using this
    case setFMUState i =>
      refine keep (begin_all fun ha => ?_)
      cases e : w.slots i with
      | none => simpa [callLast, call, Status.rank] using term (log _ h.inst)
      | some s => simpa [callLast, call, Status.rank] using hi.restore h.inst (h.slots _ _ e)
    case enterEventMode =>
      exact keep (begin_all fun ha => by simpa using hi.enterEvent h.inst ((allowed_CTstep _).1 ha))
    case enterContinuousTimeMode =>
      exact keep (begin_all fun ha => by simpa using hi.enterCT h.inst ((allowed_event _).1 ha))
    case enterStepMode => exact keep' (hx (by simp [Op.fn]))
    case setTime t =>
      exact keep (begin_all fun ha => by simpa using hi.setTime t h.inst ((allowed_eventCT _).1 ha))
    case enterConfigurationMode =>
      exact keep (begin_all fun ha => by
        simpa using hi.enterConfig h.inst ((allowed_enterConfig _).1 ha))
    case exitConfigurationMode =>
      refine keep (begin_all fun ha => ?_)
      have hc := hi.exitConfig h.inst ((allowed_exitConfig _).1 ha)
      simp only
      split
      · exact Body.all hi.term (Body.callLast (Inner.configurate hm hi.toConfQuiet hc))
      · simpa using hc
    case getOutputDerivatives =>
      refine keep (begin_all fun ha => ?_)
      split
      · next hf =>
        exact Body.all hi.term
          (Body.outputDerivLoop hm hi.toQuiet (f := _) (by trivial) hf _ _ _ _ h.inst)
      · simpa [notImplemented] using log _ h.inst
    case notImplemented => exact keep (by simpa [notImplemented] using log _ h.inst)
    case getFMUState i =>
      refine slot ?_
      unfold getFMUState begin beginFunction
      split
      · simpa using h.inst
      · simpa using ⟨term (log _ h.inst), h.slots i⟩
    case freeFMUState i =>
      refine slot ?_
      unfold freeFMUState begin beginFunction
      split
      · simpa using h.inst
      · simpa using ⟨term (log _ h.inst), h.slots i⟩
    case deserializeFMUState b n i =>
      refine slot ?_
      unfold deserializeFMUState begin beginFunction
      split
      · split
        · simpa using ⟨term (log _ h.inst), h.slots i⟩
        · unfold Buffer.load
          split
          · simp
          · next bb eb =>
            split
            · simp
            · split
              · simp
              · next s es => simpa using ⟨h.inst, h.bufs _ _ _ eb es⟩
      · simpa using ⟨term (log _ h.inst), h.slots i⟩
    case serializeFMUState i b n =>
      have hr : (serializeFMUState m w.inst (w.slots i) (w.bufs b) n).All fun x => P x.1 ∧
          ∀ bb s, x.2.2 = some bb → bb.image = some s → P s := by
        unfold serializeFMUState begin beginFunction
        split
        · split
          · simpa using ⟨term (log _ h.inst), h.bufs b⟩
          · next s es =>
            split
            · simpa using ⟨term (log _ h.inst), h.bufs b⟩
            · unfold Buffer.store
              split
              · simp
              · split
                · simp
                · simp only [Outcome.ret_bind, Outcome.all_ret]
                  refine ⟨h.inst, fun bb s' e e' => ?_⟩
                  cases e; cases e'
                  exact h.slots _ _ es
        · simpa using ⟨term (log _ h.inst), h.bufs b⟩
      refine Outcome.All.bind hr ?_
      rintro ⟨c, s, v⟩ ⟨h1, h2⟩
      refine Outcome.all_ret.2 ⟨h1, h.slots, ?_⟩
      intro j bb s e e'
      simp only at e
      split at e
      · exact h2 bb s e e'
      · exact h.bufs j bb s e e'

/-- Every call keeps an invariant. -/
theorem step_inv (hm : OkOrError m) (hi : HistInv m P) {fuel : Nat} {w : World F D}
    (h : WInv P w) (op : Op F) : (step m fuel w op).All fun x => WInv P x.1 :=
  step_inv₀ hm ⟨hi.toCallInv₀, @hi.flags⟩ h op (exits_keep hm hi.toCallInv h.inst)

/-- Every history keeps an invariant. -/
theorem run_inv (hm : OkOrError m) (hi : HistInv m P) {fuel : Nat} (ops : List (Op F)) :
    ∀ {w : World F D}, WInv P w → (run m fuel w ops).All fun x => WInv P x.1 := by
  induction ops with
  | nil => intro w h; simpa [run] using h
  | cons op ops ih =>
    intro w h
    unfold run
    refine Outcome.All.bind (step_inv hm hi h op) ?_
    rintro ⟨w, s, o⟩ h
    refine Outcome.All.bind (ih h) ?_
    rintro ⟨w, l⟩ h
    simpa using h

end FMI3
end Verif
