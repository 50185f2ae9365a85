import Verif.Lemmas.Api2

/-!
# Histories of FMI 2.0 calls: generic results

* `step_body`: the functions that switch neither mode nor time.
* `HistInv`, `step_inv`, `run_inv`: invariants of histories.
-/

set_option linter.unusedSectionVars false

namespace Verif
namespace FMI2
variable {F D : Type} {m : Model F D} {P : Comp F D → Prop}

/-- Functions that have a mode or time change of their own. -/
def Op.switches : Op F → Bool
  | .setupExperiment .. | .enterInitializationMode | .exitInitializationMode | .terminate | .reset
  | .setFMUstate .. | .enterEventMode | .enterContinuousTimeMode | .setTime .. => true
  | _ => false

/-- Result of a call that stays inside `P`. -/
def BodyRes (P : Comp F D → Prop) (x : World F D × Status × Out F) : Prop :=
  (x.2.1 = .OK ∨ x.2.1 = .Discard) ∧ P x.1.inst ∨
    x.2.1 = .Error ∧ ∃ c, P c ∧ x.1.inst = c.setState .terminated

theorem run_body {β : Type} {w : World F D} {r : Res F D β} {out : β → Out F} (h : Body P r) :
    (w.run r out).All (BodyRes P) :=
  Outcome.All.bind h fun _ h => Outcome.all_ret.2 h
theorem runSlot_body {w : World F D} {i r} (h : Body P r) : (w.runSlot i r).All (BodyRes P) :=
  Outcome.All.bind h fun _ h => Outcome.all_ret.2 h
theorem runBuf_body {w : World F D} {i r} (h : Body P r) : (w.runBuf i r).All (BodyRes P) :=
  Outcome.All.bind h fun _ h => Outcome.all_ret.2 h

variable [Arith F] [HasInf F]

/-- The functions of `model.c` an API function calls (for the functions that switch neither mode nor
time, and `ExitInitializationMode`). -/
def Fn.calls : Fn → List MFn
  | .getReal | .getInteger | .getString => [.get, .calc]
  | .getBoolean => [.get]
  | .setReal | .setInteger | .setBoolean | .setString => [.set]
  | .getDirectionalDerivative => [.partialDeriv]
  | .getRealOutputDerivatives => [.outDeriv]
  | .newDiscreteStates => [.event]
  | .setContinuousStates => [.setStates]
  | .getDerivatives => [.deriv]
  | .getEventIndicators => [.indicators]
  | .getContinuousStates => [.getStates]
  | .getNominals => [.nominals]
  | .exitInitializationMode => [.calc, .indicators]
  | _ => []

/-- Functions that switch neither mode nor time and make no solver step. -/
theorem step_quietT {T : MFn → Prop} (hm : OkOrError m) (hQ : Quiet m T P) {fuel : Nat}
    {w : World F D} {op : Op F} (hf : op.fn = .setDebugLogging → FlagClosed P) (h : P w.inst) (hT : ∀ f ∈ op.fn.calls, T f) (hop : op.switches = false) (hd : op.fn ≠ .doStep) :
    (step m fuel w op).All (BodyRes P) := by
  cases op <;> simp only [Op.switches, Bool.true_eq_false] at hop <;> simp only [step]
  case setDebugLogging => exact run_body (setDebugLogging_body hQ h (hf rfl))
  case getReal => exact run_body (getReal_body hm hQ h (hT _ (by simp [Op.fn, Fn.calls])) (hT _ (by simp [Op.fn, Fn.calls])))
  case getInteger => exact run_body (getInteger_body hm hQ h (hT _ (by simp [Op.fn, Fn.calls])) (hT _ (by simp [Op.fn, Fn.calls])))
  case getBoolean => exact run_body (getBoolean_body hm hQ h (hT _ (by simp [Op.fn, Fn.calls])))
  case getString => exact run_body (getString_body hm hQ h (hT _ (by simp [Op.fn, Fn.calls])) (hT _ (by simp [Op.fn, Fn.calls])))
  case setReal => exact run_body (setReal_body hm hQ h (hT _ (by simp [Op.fn, Fn.calls])))
  case setInteger => exact run_body (setInteger_body hm hQ h (hT _ (by simp [Op.fn, Fn.calls])))
  case setBoolean => exact run_body (setBoolean_body hm hQ h (hT _ (by simp [Op.fn, Fn.calls])))
  case setString => exact run_body (setString_body hm hQ h (hT _ (by simp [Op.fn, Fn.calls])))
  case getFMUstate => exact runSlot_body (getFMUstate_body hQ h)
  case freeFMUstate => exact runSlot_body (freeFMUstate_body hQ h)
  case serializedFMUstateSize => exact run_body (serializedFMUstateSize_body hQ h)
  case serializeFMUstate => exact runBuf_body (serializeFMUstate_body hQ h)
  case deSerializeFMUstate => exact runSlot_body (deSerializeFMUstate_body hQ h)
  case getDirectionalDerivative => exact run_body (getDirectionalDerivative_body hm hQ h (hT _ (by simp [Op.fn, Fn.calls])))
  case setRealInputDerivatives => exact run_body (setRealInputDerivatives_body hQ h)
  case getRealOutputDerivatives => exact run_body (getRealOutputDerivatives_body hm hQ h (hT _ (by simp [Op.fn, Fn.calls])))
  case cancelStep => exact run_body (cancelStep_body hQ h)
  case doStep => exact absurd rfl hd
  case getStatus => exact run_body (getStatus_body hQ h)
  case getRealStatus => exact run_body (getRealStatus_body hQ h)
  case getIntegerStatus => exact run_body (getIntegerStatus_body hQ h)
  case getBooleanStatus => exact run_body (getBooleanStatus_body hQ h)
  case getStringStatus => exact run_body (getStringStatus_body hQ h)
  case newDiscreteStates => exact run_body (newDiscreteStates_body hm hQ h (hT _ (by simp [Op.fn, Fn.calls])))
  case completedIntegratorStep => exact run_body (completedIntegratorStep_body hQ h)
  case setContinuousStates => exact run_body (setContinuousStates_body hm hQ h (hT _ (by simp [Op.fn, Fn.calls])))
  case getDerivatives => exact run_body (getDerivatives_body hm hQ h (hT _ (by simp [Op.fn, Fn.calls])))
  case getEventIndicators => exact run_body (getEventIndicators_body hm hQ h (hT _ (by simp [Op.fn, Fn.calls])))
  case getContinuousStates => exact run_body (getContinuousStates_body hm hQ h (hT _ (by simp [Op.fn, Fn.calls])))
  case getNominals => exact run_body (getNominals_body hm hQ h (hT _ (by simp [Op.fn, Fn.calls])))

/-- The same for all functions of `model.c`. -/
theorem step_quiet (hm : OkOrError m) (hQ : Quiet m (fun _ => True) P) {fuel : Nat}
    {w : World F D} {op : Op F} (hf : op.fn = .setDebugLogging → FlagClosed P) (h : P w.inst) (hop : op.switches = false) (hd : op.fn ≠ .doStep) :
    (step m fuel w op).All (BodyRes P) :=
  step_quietT hm hQ hf h (fun _ _ => trivial) hop hd

theorem step_do (hm : OkOrError m) (hq : DoQuiet m P) {fuel : Nat} {w : World F D} {op : Op F} (h : P w.inst)
    (hd : op.fn = .doStep) : (step m fuel w op).All (BodyRes P) := by
  cases op <;> simp only [Op.fn, reduceCtorEq] at hd
  simp only [step]
  exact run_body (doStep_body hm hq h)

theorem step_body (hm : OkOrError m) (hq : StepQuiet m P) {fuel : Nat}
    {w : World F D} {op : Op F} (hf : op.fn = .setDebugLogging → FlagClosed P) (h : P w.inst) (hop : op.switches = false) :
    (step m fuel w op).All (BodyRes P) := by
  by_cases hd : op.fn = .doStep
  · cases op <;> simp only [Op.fn, reduceCtorEq] at hd
    simp only [step]
    exact run_body (doStep_body hm hq.toDo h)
  · exact step_quiet hm hq.toQuiet hf h hop hd

/-- A property of the instance that calls keep, given that stored states have the property `S`.
Nothing is said about `SetDebugLogging`, `ExitInitializationMode`. -/
structure CallInv₀ (m : Model F D) (S P : Comp F D → Prop) : Prop extends StepQuiet m P where
  term : ∀ {c}, P c → P (c.setState .terminated)
  setup : ∀ {c} a b, P c → c.ctx.state = .instantiated →
    P { c.setTime a with startTime := a, stopTime := b, nextCommunicationPoint := a }
  enterInit : ∀ {c}, P c → c.ctx.state = .instantiated → P (c.setState .initializationMode)
  reset : ∀ {c}, P c → (Verif.reset m c).All fun x => P x.1
  restore : ∀ {c s}, P c → S s → P (setFMUState m c s)
  enterEvent : ∀ {c}, P c → c.ctx.state = .eventMode ∨ c.ctx.state = .continuousTimeMode →
    P (c.setState .eventMode)
  enterCT : ∀ {c}, P c → c.ctx.state = .eventMode → P (c.setState .continuousTimeMode)
  setTime : ∀ {c} t, P c → c.ctx.state = .eventMode ∨ c.ctx.state = .continuousTimeMode →
    P (c.setTime t)

/-- A property of the instance that calls keep, also `ExitInitializationMode`. -/
structure CallInv (m : Model F D) (S P : Comp F D → Prop) : Prop extends CallInv₀ m S P where
  exitInit : ∀ {c}, P c → c.ctx.state = .initializationMode →
    P (c.setState (if c.ctx.typ = .modelExchange then .eventMode else .stepComplete))

/-- An invariant of histories of calls. -/
structure HistInv (m : Model F D) (P : Comp F D → Prop) : Prop extends CallInv m P P where
  flags : ∀ {c : Comp F D} (a b : Bool), P c →
    P { c with ctx := { c.ctx with logEvents := a, logErrors := b } }

/-- An invariant of histories of calls; nothing is said about `ExitInitializationMode`. -/
structure HistInv₀ (m : Model F D) (P : Comp F D → Prop) : Prop extends CallInv₀ m P P where
  flags : ∀ {c : Comp F D} (a b : Bool), P c →
    P { c with ctx := { c.ctx with logEvents := a, logErrors := b } }

/-- The invariant for a whole world: also for saved and serialised states. -/
structure WInv (P : Comp F D → Prop) (w : World F D) : Prop where
  inst : P w.inst
  slots : ∀ i s, w.slots i = some s → P s
  bufs : ∀ i b s, w.bufs i = some b → b.image = some s → P s

omit [Arith F] [HasInf F] in
theorem WInv.fresh {c : Comp F D} (h : P c) : WInv P (World.fresh c) :=
  ⟨h, fun _ _ e => by simp [World.fresh] at e, fun _ _ _ e => by simp [World.fresh] at e⟩

omit [Arith F] [HasInf F] in
theorem allowed_iff (ctx : Ctx F) (l : List Mode) (hl : ∀ s, (s.bit2 &&& mask l != 0) = decide (s ∈ l)) :
    allowed ctx (mask l) = true ↔ ctx.state ∈ l := by
  simp [allowed, hl]

omit [Arith F] [HasInf F] in
theorem allowed_inst (ctx : Ctx F) :
    allowed ctx (mask [.instantiated]) = true ↔ ctx.state = .instantiated := by
  cases h : ctx.state <;> simp [allowed, h] <;> decide
omit [Arith F] [HasInf F] in
theorem allowed_init (ctx : Ctx F) :
    allowed ctx (mask [.initializationMode]) = true ↔ ctx.state = .initializationMode := by
  cases h : ctx.state <;> simp [allowed, h] <;> decide
omit [Arith F] [HasInf F] in
theorem allowed_event (ctx : Ctx F) :
    allowed ctx (mask [.eventMode]) = true ↔ ctx.state = .eventMode := by
  cases h : ctx.state <;> simp [allowed, h] <;> decide
omit [Arith F] [HasInf F] in
theorem allowed_eventCT (ctx : Ctx F) : allowed ctx (mask [.eventMode, .continuousTimeMode]) = true ↔
    ctx.state = .eventMode ∨ ctx.state = .continuousTimeMode := by
  cases h : ctx.state <;> simp [allowed, h] <;> decide

omit [HasInf F] in
theorem Quiet.and_state {T : MFn → Prop} (hq : Quiet m T P) (s : Mode) (t : IType) :
    Quiet m T fun c => P c ∧ c.ctx.state = s ∧ c.ctx.typ = t where
  lift h hT e := ⟨hq.lift h.1 hT e, h.2⟩
  log msg h := ⟨hq.log msg h.1, h.2⟩
  dirty b h := ⟨hq.dirty b h.1, h.2⟩

/-- Result of `Body` when `P` also survives termination. -/
theorem Body.all {β : Type} (ht : ∀ {c}, P c → P (c.setState .terminated)) {r : Res F D β}
    (h : Body P r) : r.All fun x => P x.1 :=
  Outcome.All.mono h fun x h => by
    rcases h with ⟨_, h⟩ | ⟨_, c, h, e⟩
    · exact h
    · rw [e]; exact ht h

theorem exitInitializationMode_all {S : Comp F D → Prop} (hm : OkOrError m) (hi : CallInv m S P) {c : Comp F D} (h : P c) :
    (exitInitializationMode m c).All fun x => P x.1 := by
  unfold exitInitializationMode begin beginFunction
  split
  · next ha =>
    have hs := (allowed_init _).1 ha
    unfold refresh
    have fin : ∀ c : Comp F D, P c → c.ctx.state = .initializationMode →
        Outcome.All (call .OK (configurate m (c.setState
          (if c.ctx.typ = .modelExchange then .eventMode else .stepComplete))) id
          fun c st _ => .ret (c, st, ())) fun x => P x.1 := by
      intro c h hs
      have := Body.callLast (out := id) (Inner.configurate hm hi.toConfQuiet (hi.exitInit h hs))
      exact Body.all hi.term this
    simp only []
    split
    · have q := Quiet.and_state hi.toQuiet .initializationMode c.ctx.typ
      have := Inner.lift hm q (c := c) ⟨h, hs, rfl⟩ (f := .calc) trivial
        (r := m.calculateValues c.ctx c.mv) fun _ _ _ e => .calc e
      refine Outcome.All.bind this ?_
      rintro ⟨c, s, a⟩ ⟨hs, hp, hst, _⟩
      simp only at hs hp hst
      rcases hs with rfl | rfl | rfl
      · exact fin _ (hi.dirty false hp) hst
      · simpa [Status.rank] using hp
      · simpa [Status.rank] using hi.term hp
    · exact fin c h hs
  · simpa using hi.term (hi.log _ h)

/-- Every call other than `SetDebugLogging` keeps a property of the instance. -/
theorem step_keep₀ {S : Comp F D → Prop} (hm : OkOrError m) (hi : CallInv₀ m S P) {fuel : Nat}
    {w : World F D} (hS : ∀ i s, w.slots i = some s → S s) (h : P w.inst) {op : Op F}
    (hf : op.fn = .setDebugLogging → FlagClosed P)
    (hx : op.fn = .exitInitializationMode → (step m fuel w op).All fun x => P x.1.inst) :
    (step m fuel w op).All fun x => P x.1.inst := by
  have keep : ∀ {β : Type} {r : Res F D β} {out : β → Out F}, r.All (fun x => P x.1) →
      (w.run r out).All fun x => P x.1.inst := fun hr =>
    Outcome.All.bind hr fun x hx => Outcome.all_ret.2 hx
  have term := @hi.term
  have log := @hi.log
  have begin_all : ∀ {β : Type} {mask : Nat} {name : String} {stop : β} {k : Comp F D → Res F D β},
      (allowed w.inst.ctx mask = true → (k w.inst).All fun x => P x.1) →
      (begin mask name w.inst stop k).All fun x => P x.1 := by
    intro β mask name stop k hk
    unfold begin beginFunction
    split
    · next ha => exact hk ha
    · simpa using term (log _ h)
  by_cases hop : op.switches = false
  · refine (step_body hm hi.toStepQuiet hf h hop).mono fun x hx => ?_
    rcases hx with ⟨_, h⟩ | ⟨_, c, h, e⟩
    · exact h
    · rw [e]; exact hi.term h
  · cases op <;> simp only [Op.switches, step] at hop ⊢ <;> try (exfalso; simp at hop; done)
    case setupExperiment a d b =>
      exact keep (begin_all fun ha => by simpa using hi.setup _ _ h ((allowed_inst _).1 ha))
    case enterInitializationMode =>
      exact keep (begin_all fun ha => by simpa using hi.enterInit h ((allowed_inst _).1 ha))
    case exitInitializationMode => exact hx (by simp [Op.fn])
    case terminate => exact keep (begin_all fun ha => by simpa using term h)
    case reset =>
      refine keep (begin_all fun ha => ?_)
      have := hi.reset h
      unfold Verif.reset at this ⊢
      simpa [callLast, call, Status.rank] using this
    case setFMUstate i =>
      refine keep (begin_all fun ha => ?_)
      split
      · simpa using log _ h
      · next s e => simpa using hi.restore h (hS _ _ e)
    case enterEventMode =>
      exact keep (begin_all fun ha => by simpa using hi.enterEvent h ((allowed_eventCT _).1 ha))
    case enterContinuousTimeMode =>
      exact keep (begin_all fun ha => by simpa using hi.enterCT h ((allowed_event _).1 ha))
    case setTime t =>
      exact keep (begin_all fun ha => by simpa using hi.setTime t h ((allowed_eventCT _).1 ha))

theorem exits_keep {S : Comp F D → Prop} (hm : OkOrError m) (hi : CallInv m S P) {fuel : Nat}
    {w : World F D} (h : P w.inst) {op : Op F} (hx : op.fn = .exitInitializationMode) :
    (step m fuel w op).All fun x => P x.1.inst := by
  have keep : ∀ {β : Type} {r : Res F D β} {out : β → Out F}, r.All (fun x => P x.1) →
      (w.run r out).All fun x => P x.1.inst := fun hr =>
    Outcome.All.bind hr fun x hx => Outcome.all_ret.2 hx
  cases op <;> simp only [Op.fn, reduceCtorEq] at hx <;> simp only [step]
  case exitInitializationMode => exact keep (exitInitializationMode_all hm hi h)

/-- Every call other than `SetDebugLogging` keeps a property of the instance. -/
theorem step_keep {S : Comp F D → Prop} (hm : OkOrError m) (hi : CallInv m S P) {fuel : Nat}
    {w : World F D} (hS : ∀ i s, w.slots i = some s → S s) (h : P w.inst) {op : Op F}
    (hf : op.fn = .setDebugLogging → FlagClosed P) :
    (step m fuel w op).All fun x => P x.1.inst :=
  step_keep₀ hm hi.toCallInv₀ hS h hf (exits_keep hm hi h)

theorem step_inv₀ (hm : OkOrError m) (hi : HistInv₀ m P) {fuel : Nat} {w : World F D}
    (h : WInv P w) (op : Op F)
    (hx : op.fn = .exitInitializationMode → (step m fuel w op).All fun x => P x.1.inst) :
    (step m fuel w op).All fun x => WInv P x.1 := by
  have keep' : ∀ {β : Type} {r : Res F D β} {out : β → Out F},
      (w.run r out).All (fun x => P x.1.inst) → (w.run r out).All fun x => WInv P x.1 := by
    intro β r out hr x e
    have := hr x e
    obtain ⟨y, -, e⟩ := Outcome.bind_eq_ret.1 e
    cases e
    exact ⟨this, h.slots, h.bufs⟩
  have keep : ∀ {β : Type} {r : Res F D β} {out : β → Out F}, r.All (fun x => P x.1) →
      (w.run r out).All fun x => WInv P x.1 := fun hr =>
    Outcome.All.bind hr fun x hx => Outcome.all_ret.2 ⟨hx, h.slots, h.bufs⟩
  have slot : ∀ {i r}, r.All (fun (x : Comp F D × Status × Option (Comp F D)) =>
      P x.1 ∧ ∀ s, x.2.2 = some s → P s) → (w.runSlot i r).All fun x => WInv P x.1 := by
    intro i r hr
    refine Outcome.All.bind hr ?_
    rintro ⟨c, s, v⟩ ⟨h1, h2⟩
    refine Outcome.all_ret.2 ⟨h1, ?_, h.bufs⟩
    intro j s e
    simp only at e
    split at e
    · exact h2 s e
    · exact h.slots j s e
  have term := @hi.term
  have log := @hi.log
  have begin_all : ∀ {β : Type} {mask : Nat} {name : String} {stop : β} {k : Comp F D → Res F D β},
      (allowed w.inst.ctx mask = true → (k w.inst).All fun x => P x.1) →
      (begin mask name w.inst stop k).All fun x => P x.1 := by
    intro β mask name stop k hk
    unfold begin beginFunction
    split
    · next ha => exact hk ha
    · simpa using term (log _ h.inst)
  by_cases hop : op.switches = false ∧ ∀ i, op ≠ .getFMUstate i ∧ op ≠ .freeFMUstate i ∧
      (∀ b n, op ≠ .serializeFMUstate i b n ∧ op ≠ .deSerializeFMUstate b n i)
  · have hb := step_body hm hi.toStepQuiet (fun _ => @hi.flags) h.inst hop.1 (fuel := fuel)
    have hP := hb.mono (Q' := fun x => P x.1.inst) fun x hx => by
      rcases hx with ⟨_, h⟩ | ⟨_, c, h, e⟩
      · exact h
      · rw [e]; exact hi.term h
    have sl : (step m fuel w op).All fun x => x.1.slots = w.slots ∧ x.1.bufs = w.bufs := by
      have := hop.2
      cases op <;> simp only [step, World.run] <;>
        first
        | exact Outcome.All.bind Outcome.all_true fun _ _ => Outcome.all_ret.2 ⟨rfl, rfl⟩
        | simp at this
        | (exfalso; simp at this; exact absurd rfl (this _ _ _))
    intro x e
    have h1 := hP x e
    have h2 := sl x e
    exact ⟨h1, h2.1 ▸ h.slots, h2.2 ▸ h.bufs⟩
  · cases op <;> simp only [Op.switches, step] at hop ⊢ <;> try (exfalso; simp at hop; done)
    case setupExperiment a d b =>
      exact keep (begin_all fun ha => by simpa using hi.setup _ _ h.inst ((allowed_inst _).1 ha))
    case enterInitializationMode =>
      exact keep (begin_all fun ha => by simpa using hi.enterInit h.inst ((allowed_inst _).1 ha))
    case exitInitializationMode => exact keep' (hx (by simp [Op.fn]))
    case terminate => exact keep (begin_all fun ha => by simpa using term h.inst)
    case reset =>
      refine keep (begin_all fun ha => ?_)
      have := hi.reset h.inst
      unfold Verif.reset at this ⊢
      simpa [callLast, call, Status.rank] using this
    case setFMUstate i =>
      refine keep (begin_all fun ha => ?_)
      split
      · simpa using log _ h.inst
      · next s e => simpa using hi.restore h.inst (h.slots _ _ e)
    case enterEventMode =>
      exact keep (begin_all fun ha => by simpa using hi.enterEvent h.inst ((allowed_eventCT _).1 ha))
    case enterContinuousTimeMode =>
      exact keep (begin_all fun ha => by simpa using hi.enterCT h.inst ((allowed_event _).1 ha))
    case setTime t =>
      exact keep (begin_all fun ha => by simpa using hi.setTime t h.inst ((allowed_eventCT _).1 ha))
    case getFMUstate i =>
      refine slot ?_
      unfold getFMUstate begin beginFunction
      split
      · simpa using h.inst
      · simpa using ⟨term (log _ h.inst), h.slots i⟩
    case freeFMUstate i =>
      refine slot ?_
      unfold freeFMUstate begin beginFunction
      split
      · simpa using h.inst
      · simpa using ⟨term (log _ h.inst), h.slots i⟩
    case deSerializeFMUstate b n i =>
      refine slot ?_
      unfold deSerializeFMUstate begin beginFunction
      split
      · split
        · simpa using ⟨term (log _ h.inst), h.slots i⟩
        · unfold Buffer.load
          split
          · simp
          · next bb eb =>
            split
            · simp
            · split
              · simp
              · next s es => simpa using ⟨h.inst, h.bufs _ _ _ eb es⟩
      · simpa using ⟨term (log _ h.inst), h.slots i⟩
    case serializeFMUstate i b n =>
      have hr : (serializeFMUstate m w.inst (w.slots i) (w.bufs b) n).All fun x => P x.1 ∧
          ∀ bb s, x.2.2 = some bb → bb.image = some s → P s := by
        unfold serializeFMUstate begin beginFunction
        split
        · split
          · simpa using ⟨term (log _ h.inst), h.bufs b⟩
          · next s es =>
            split
            · simpa using ⟨term (log _ h.inst), h.bufs b⟩
            · unfold Buffer.store
              split
              · simp
              · split
                · simp
                · simp only [Outcome.ret_bind, Outcome.all_ret]
                  refine ⟨h.inst, fun bb s' e e' => ?_⟩
                  cases e; cases e'
                  exact h.slots _ _ es
        · simpa using ⟨term (log _ h.inst), h.bufs b⟩
      refine Outcome.All.bind hr ?_
      rintro ⟨c, s, v⟩ ⟨h1, h2⟩
      refine Outcome.all_ret.2 ⟨h1, h.slots, ?_⟩
      intro j bb s e e'
      simp only at e
      split at e
      · exact h2 bb s e e'
      · exact h.bufs j bb s e e'

/-- Every call keeps an invariant. -/
theorem step_inv (hm : OkOrError m) (hi : HistInv m P) {fuel : Nat} {w : World F D}
    (h : WInv P w) (op : Op F) : (step m fuel w op).All fun x => WInv P x.1 :=
  step_inv₀ hm ⟨hi.toCallInv₀, @hi.flags⟩ h op (exits_keep hm hi.toCallInv h.inst)

/-- Every history keeps an invariant. -/
theorem run_inv (hm : OkOrError m) (hi : HistInv m P) {fuel : Nat} (ops : List (Op F)) :
    ∀ {w : World F D}, WInv P w → (run m fuel w ops).All fun x => WInv P x.1 := by
  induction ops with
  | nil => intro w h; simpa [run] using h
  | cons op ops ih =>
    intro w h
    unfold run
    refine Outcome.All.bind (step_inv hm hi h op) ?_
    rintro ⟨w, s, o⟩ h
    refine Outcome.All.bind (ih h) ?_
    rintro ⟨w, l⟩ h
    simpa using h

end FMI2
end Verif
