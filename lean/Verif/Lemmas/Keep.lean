import Verif.Lemmas.Hist2
import Verif.Lemmas.Hist3

/-!
# Properties kept by all calls but some

Variants of `CallInv` and `step_keep` for histories without calls of the functions in `X`.
-/

set_option linter.unusedSectionVars false

namespace Verif
namespace FMI2
variable {F D : Type} {m : Model F D} {P : Comp F D → Prop}
variable [Arith F] [HasInf F] {X : Fn → Prop} {T : MFn → Prop}

/-- A property of the instance that calls keep, except those of the functions in `X`. -/
structure CallInvX (X : Fn → Prop) (T : MFn → Prop) (m : Model F D) (S P : Comp F D → Prop) : Prop extends Quiet m T P where
  calls : ∀ fn, ¬ X fn → ∀ f ∈ fn.calls, T f
  step : ¬ X .doStep → DoQuiet m P
  nx : ¬ X .exitInitializationMode → ∀ {c}, P c → P { c with nx := m.numContinuousStates c.mv }
  nz : ¬ X .exitInitializationMode → ∀ {c}, P c → P { c with nz := m.numEventIndicators c.mv }
  prez : ¬ X .exitInitializationMode → ∀ {c} l, P c → P { c with prez := l }
  term : ∀ {c}, P c → P (c.setState .terminated)
  setup : ¬ X .setupExperiment → ∀ {c} a b, P c → c.ctx.state = .instantiated →
    P { c.setTime a with startTime := a, stopTime := b, nextCommunicationPoint := a }
  enterInit : ¬ X .enterInitializationMode → ∀ {c}, P c → c.ctx.state = .instantiated → P (c.setState .initializationMode)
  reset : ¬ X .reset → ∀ {c}, P c → (Verif.reset m c).All fun x => P x.1
  restore : ¬ X .setFMUstate → ∀ {c s}, P c → S s → P (setFMUState m c s)
  enterEvent : ¬ X .enterEventMode → ∀ {c}, P c → c.ctx.state = .eventMode ∨ c.ctx.state = .continuousTimeMode →
    P (c.setState .eventMode)
  enterCT : ¬ X .enterContinuousTimeMode → ∀ {c}, P c → c.ctx.state = .eventMode → P (c.setState .continuousTimeMode)
  setTime : ¬ X .setTime → ∀ {c} t, P c → c.ctx.state = .eventMode ∨ c.ctx.state = .continuousTimeMode →
    P (c.setTime t)
  exitInit : ¬ X .exitInitializationMode → ∀ {c}, P c → c.ctx.state = .initializationMode →
    P (c.setState (if c.ctx.typ = .modelExchange then .eventMode else .stepComplete))

theorem exitInitializationMode_allX {S : Comp F D → Prop} (hm : OkOrError m) (hi : CallInvX X T m S P) (hX : ¬ X .exitInitializationMode)
    {c : Comp F D} (h : P c) :
    (exitInitializationMode m c).All fun x => P x.1 := by
  unfold exitInitializationMode begin beginFunction
  split
  · next ha =>
    have hs := (allowed_init _).1 ha
    unfold refresh
    have fin : ∀ c : Comp F D, P c → c.ctx.state = .initializationMode →
        Outcome.All (call .OK (configurate m (c.setState
          (if c.ctx.typ = .modelExchange then .eventMode else .stepComplete))) id
          fun c st _ => .ret (c, st, ())) fun x => P x.1 := by
      intro c h hs
      have := Body.callLast (out := id) (Inner.configurateT hm hi.toQuiet (hi.calls _ hX _ (by simp [Fn.calls, Op.fn])) (hi.nx hX) (hi.nz hX)
        (hi.prez hX) (hi.exitInit hX h hs))
      exact Body.all hi.term this
    simp only []
    split
    · have q := Quiet.and_state hi.toQuiet .initializationMode c.ctx.typ
      have := Inner.lift hm q (c := c) ⟨h, hs, rfl⟩ (f := .calc) (hi.calls _ hX _ (by simp [Fn.calls]))
        (r := m.calculateValues c.ctx c.mv) fun _ _ _ e => .calc e
      refine Outcome.All.bind this ?_
      rintro ⟨c, s, a⟩ ⟨hs, hp, hst, _⟩
      simp only at hs hp hst
      rcases hs with rfl | rfl | rfl
      · exact fin _ (hi.dirty false hp) hst
      · simpa [Status.rank] using hp
      · simpa [Status.rank] using hi.term hp
    · exact fin c h hs
  · simpa using hi.term (hi.log _ h)

/-- Every call of a function outside `X` keeps a property of the instance. -/
theorem step_keepX {S : Comp F D → Prop} (hm : OkOrError m) (hi : CallInvX X T m S P) {fuel : Nat}
    {w : World F D} (hS : ¬ X .setFMUstate → ∀ i s, w.slots i = some s → S s) (h : P w.inst) {op : Op F}
    (hf : op.fn = .setDebugLogging → FlagClosed P)
    (hX : ¬ X op.fn) :
    (step m fuel w op).All fun x => P x.1.inst := by
  have keep : ∀ {β : Type} {r : Res F D β} {out : β → Out F}, r.All (fun x => P x.1) →
      (w.run r out).All fun x => P x.1.inst := fun hr =>
    Outcome.All.bind hr fun x hx => Outcome.all_ret.2 hx
  have term := @hi.term
  have log := @hi.log
  have begin_all : ∀ {β : Type} {mask : Nat} {name : String} {stop : β} {k : Comp F D → Res F D β},
      (allowed w.inst.ctx mask = true → (k w.inst).All fun x => P x.1) →
      (begin mask name w.inst stop k).All fun x => P x.1 := by
    intro β mask name stop k hk
    unfold begin beginFunction
    split
    · next ha => exact hk ha
    · simpa using term (log _ h)
  by_cases hop : op.switches = false
  · have hb : (step m fuel w op).All (BodyRes P) := by
      by_cases hd : op.fn = .doStep
      · exact step_do hm (hi.step (hd ▸ hX)) h hd
      · exact step_quietT hm hi.toQuiet hf h (hi.calls _ hX) hop hd
    refine hb.mono fun x hx => ?_
    rcases hx with ⟨_, h⟩ | ⟨_, c, h, e⟩
    · exact h
    · rw [e]; exact hi.term h
  · cases op <;> simp only [Op.switches, step] at hop ⊢ <;> try (exfalso; simp at hop; done)
    case setupExperiment a d b =>
      exact keep (begin_all fun ha => by simpa using hi.setup hX _ _ h ((allowed_inst _).1 ha))
    case enterInitializationMode =>
      exact keep (begin_all fun ha => by simpa using hi.enterInit hX h ((allowed_inst _).1 ha))
    case exitInitializationMode => exact keep (exitInitializationMode_allX hm hi hX h)
    case terminate => exact keep (begin_all fun ha => by simpa using term h)
    case reset =>
      refine keep (begin_all fun ha => ?_)
      have := hi.reset hX h
      unfold Verif.reset at this ⊢
      simpa [callLast, call, Status.rank] using this
    case setFMUstate i =>
      refine keep (begin_all fun ha => ?_)
      split
      · simpa using log _ h
      · next s e => simpa using hi.restore hX h (hS hX _ _ e)
    case enterEventMode =>
      exact keep (begin_all fun ha => by simpa using hi.enterEvent hX h ((allowed_eventCT _).1 ha))
    case enterContinuousTimeMode =>
      exact keep (begin_all fun ha => by simpa using hi.enterCT hX h ((allowed_event _).1 ha))
    case setTime t =>
      exact keep (begin_all fun ha => by simpa using hi.setTime hX t h ((allowed_eventCT _).1 ha))

/-- The same for a history. -/
theorem run_keepX (hm : OkOrError m) (hi : CallInvX X T m (fun _ => True) P) (hf : FlagClosed P) {fuel : Nat} :
    ∀ (ops : List (Op F)) {w : World F D}, P w.inst → (∀ op ∈ ops, ¬ X op.fn) →
      (run m fuel w ops).All fun x => P x.1.inst := by
  intro ops
  induction ops with
  | nil => intro w h _; simpa [run] using h
  | cons op ops ih =>
    intro w h hX
    unfold run
    refine Outcome.All.bind (step_keepX hm hi (fun _ _ _ _ => trivial) h (fun _ => hf)
      (hX op (by simp))) ?_
    rintro ⟨w1, s, o⟩ h1
    refine Outcome.All.bind (ih h1 fun op hop => hX op (by simp [hop])) ?_
    rintro ⟨w2, l⟩ h2
    exact Outcome.all_ret.2 h2

end FMI2

namespace FMI3
variable {F D : Type} {m : Model F D} {P : Comp F D → Prop}
variable [Arith F] [HasInf F] {X : Fn → Prop} {T : MFn → Prop}

/-- A property of the instance that calls keep, except those of the functions in `X`. -/
structure CallInvX (X : Fn → Prop) (T : MFn → Prop) (m : Model F D) (S P : Comp F D → Prop) : Prop extends Quiet m T P where
  calls : ∀ fn, ¬ X fn → ∀ f ∈ fn.calls, T f
  step : ¬ X .doStep → DoQuiet m P
  nx : ¬ X .exitInitializationMode ∨ ¬ X .exitConfigurationMode → ∀ {c}, P c → P { c with nx := m.numContinuousStates c.mv }
  nz : ¬ X .exitInitializationMode ∨ ¬ X .exitConfigurationMode → ∀ {c}, P c → P { c with nz := m.numEventIndicators c.mv }
  prez : ¬ X .exitInitializationMode ∨ ¬ X .exitConfigurationMode → ∀ {c} l, P c → P { c with prez := l }
  term : ∀ {c}, P c → P (c.setState .terminated)
  enterInit : ¬ X .enterInitializationMode → ∀ {c} a b, P c → c.ctx.state = .instantiated →
    P { (c.setTime a).setState .initializationMode with
      startTime := a, stopTime := b, nextCommunicationPoint := a }
  enterConfig : ¬ X .enterConfigurationMode → ∀ {c}, P c →
    c.ctx.state ∈ [Mode.instantiated, .stepMode, .eventMode, .clockActivationMode] →
    P (c.setState (if c.ctx.state = .instantiated then .configurationMode else .reconfigurationMode))
  exitConfig : ¬ X .exitConfigurationMode → ∀ {c}, P c → c.ctx.state ∈ [Mode.configurationMode, .reconfigurationMode] →
    P (c.setState (stateAfterConfig c))
  reset : ¬ X .reset → ∀ {c}, P c → (Verif.reset m c).All fun x => P x.1
  restore : ¬ X .setFMUState → ∀ {c s}, P c → S s → P (Verif.setFMUState m c s)
  enterEvent : ¬ X .enterEventMode → ∀ {c}, P c → c.ctx.state = .continuousTimeMode ∨ c.ctx.state = .stepMode →
    P (c.setState .eventMode)
  enterCT : ¬ X .enterContinuousTimeMode → ∀ {c}, P c → c.ctx.state = .eventMode → P (c.setState .continuousTimeMode)
  setTime : ¬ X .setTime → ∀ {c} t, P c → c.ctx.state = .eventMode ∨ c.ctx.state = .continuousTimeMode →
    P (c.setTime t)
  exitInit : ¬ X .exitInitializationMode → ∀ {c}, P c → c.ctx.state = .initializationMode → P (c.setState (stateAfterInit c))
  enterStep : ¬ X .enterStepMode → ∀ {c}, P c → c.ctx.state = .initializationMode ∨ c.ctx.state = .eventMode →
    P (c.setState .stepMode)

theorem exitInitializationMode_allX {S : Comp F D → Prop} (hm : OkOrError m) (hi : CallInvX X T m S P) (hX : ¬ X .exitInitializationMode)
    {c : Comp F D} (h : P c) :
    (exitInitializationMode m c).All fun x => P x.1 := by
  unfold exitInitializationMode begin beginFunction
  split
  · next ha =>
    have hs := (allowed_init _).1 ha
    unfold refresh
    have fin : ∀ c : Comp F D, P c → c.ctx.state = .initializationMode →
        Outcome.All (call .OK (configurate m (c.setState (stateAfterInit c))) id
          fun c st _ => .ret (c, st, ())) fun x => P x.1 := by
      intro c h hs
      have := Body.callLast (out := id) (Inner.configurateT hm hi.toQuiet (hi.calls _ hX _ (by simp [Fn.calls, Op.fn])) (hi.nx (.inl hX)) (hi.nz (.inl hX))
        (hi.prez (.inl hX)) (hi.exitInit hX h hs))
      exact Body.all hi.term this
    simp only []
    split
    · have q := Quiet.and_state hi.toQuiet .initializationMode c.ctx.typ
      have := Inner.lift hm q (c := c) ⟨h, hs, rfl⟩ (f := .calc) (hi.calls _ hX _ (by simp [Fn.calls]))
        (r := m.calculateValues c.ctx c.mv) fun _ _ _ e => .calc e
      refine Outcome.All.bind this ?_
      rintro ⟨c, s, a⟩ ⟨hs, hp, hst, _⟩
      simp only at hs hp hst
      rcases hs with rfl | rfl | rfl
      · exact fin _ (hi.dirty false hp) hst
      · simpa [Status.rank] using hp
      · simpa [Status.rank] using hi.term hp
    · exact fin c h hs
  · simpa using hi.term (hi.log _ h)

/-- Every call of a function outside `X` keeps a property of the instance. -/
theorem step_keepX {S : Comp F D → Prop} (hm : OkOrError m) (hi : CallInvX X T m S P) {fuel : Nat}
    {w : World F D} (hS : ¬ X .setFMUState → ∀ i s, w.slots i = some s → S s) (h : P w.inst) {op : Op F}
    (hf : op.fn = .setDebugLogging → FlagClosed P)
    (hX : ¬ X op.fn) :
    (step m fuel w op).All fun x => P x.1.inst := by
  have keep : ∀ {β : Type} {r : Res F D β} {out : β → Out F}, r.All (fun x => P x.1) →
      (w.run r out).All fun x => P x.1.inst := fun hr =>
    Outcome.All.bind hr fun x hx => Outcome.all_ret.2 hx
  have term := @hi.term
  have log := @hi.log
  have begin_all : ∀ {β : Type} {mask : Nat} {name : String} {stop : β} {k : Comp F D → Res F D β},
      (allowed w.inst.ctx mask = true → (k w.inst).All fun x => P x.1) →
      (begin mask name w.inst stop k).All fun x => P x.1 := by
    intro β mask name stop k hk
    unfold begin beginFunction
    split
    · next ha => exact hk ha
    · simpa using term (log _ h)
  by_cases hop : op.switches = false ∧ op.unsupported m = false
  · have hb : (step m fuel w op).All (BodyRes P) := by
      by_cases hd : op.fn = .doStep
      · exact step_do hm (hi.step (hd ▸ hX)) h hd
      · exact step_quietT hm hi.toQuiet hf h (hi.calls _ hX) hop.1 hd hop.2
    refine hb.mono fun x hx => ?_
    rcases hx with ⟨_, h⟩ | ⟨_, c, h, e⟩
    · exact h
    · rw [e]; exact hi.term h
  · cases op <;> simp only [Op.switches, Op.unsupported, step] at hop ⊢ <;>
      try (exfalso; simp at hop; done)
    case enterInitializationMode a d b =>
      exact keep (begin_all fun ha => by
        simpa using hi.enterInit hX _ _ h ((allowed_inst _).1 ha))
    case exitInitializationMode => exact keep (exitInitializationMode_allX hm hi hX h)
    case terminate => exact keep (begin_all fun ha => by simpa using term h)
    case reset =>
      refine keep (begin_all fun ha => ?_)
      have := hi.reset hX h
      unfold Verif.reset at this ⊢
      simpa [callLast, call, Status.rank] using this
    case setFMUState i =>
      refine keep (begin_all fun ha => ?_)
      cases e : w.slots i with
      | none => simpa [callLast, call, Status.rank] using term (log _ h)
      | some s => simpa [callLast, call, Status.rank] using hi.restore hX h (hS hX _ _ e)
    case enterEventMode =>
      exact keep (begin_all fun ha => by simpa using hi.enterEvent hX h ((allowed_CTstep _).1 ha))
    case enterContinuousTimeMode =>
      exact keep (begin_all fun ha => by simpa using hi.enterCT hX h ((allowed_event _).1 ha))
    case enterStepMode =>
      exact keep (begin_all fun ha => by
        simpa using hi.enterStep hX h ((allowed_initEvent _).1 ha))
    case setTime t =>
      exact keep (begin_all fun ha => by simpa using hi.setTime hX t h ((allowed_eventCT _).1 ha))
    case enterConfigurationMode =>
      exact keep (begin_all fun ha => by
        simpa using hi.enterConfig hX h ((allowed_enterConfig _).1 ha))
    case exitConfigurationMode =>
      refine keep (begin_all fun ha => ?_)
      have hc := hi.exitConfig hX h ((allowed_exitConfig _).1 ha)
      simp only
      split
      · exact Body.all hi.term (Body.callLast (Inner.configurateT hm hi.toQuiet (hi.calls _ hX _ (by simp [Fn.calls, Op.fn])) (hi.nx (.inr hX)) (hi.nz (.inr hX))
        (hi.prez (.inr hX)) hc))
      · simpa using hc
    case getOutputDerivatives =>
      refine keep (begin_all fun ha => ?_)
      split
      · next hf =>
        exact Body.all hi.term
          (Body.outputDerivLoop hm hi.toQuiet (f := _) (hi.calls _ hX _ (by simp [Op.fn, Fn.calls])) hf _ _ _ _ h)
      · simpa [notImplemented] using log _ h
    case notImplemented => exact keep (by simpa [notImplemented] using log _ h)

/-- The same for a history. -/
theorem run_keepX (hm : OkOrError m) (hi : CallInvX X T m (fun _ => True) P) (hf : FlagClosed P) {fuel : Nat} :
    ∀ (ops : List (Op F)) {w : World F D}, P w.inst → (∀ op ∈ ops, ¬ X op.fn) →
      (run m fuel w ops).All fun x => P x.1.inst := by
  intro ops
  induction ops with
  | nil => intro w h _; simpa [run] using h
  | cons op ops ih =>
    intro w h hX
    unfold run
    refine Outcome.All.bind (step_keepX hm hi (fun _ _ _ _ => trivial) h (fun _ => hf)
      (hX op (by simp))) ?_
    rintro ⟨w1, s, o⟩ h1
    refine Outcome.All.bind (ih h1 fun op hop => hX op (by simp [hop])) ?_
    rintro ⟨w2, l⟩ h2
    exact Outcome.all_ret.2 h2

end FMI3

end Verif
