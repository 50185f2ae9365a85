import Verif.Importer.Wrapper
import Verif.Lemmas.Modes3
import Verif.Lemmas.Reach3
import Verif.Examples

/-!
# C44: the FMI 3.0 wrapper knows the mode of the FMU

False in general: `FMI3EnterStepMode` and `FMI3SetFMUState` do not record the mode
(`C44_violated_enterStepMode`, `C44_violated_setFMUState`).
-/

set_option linter.unusedSectionVars false

namespace Verif.Importer
open Verif
variable {F D : Type} [Arith F] [HasInf F] {m : Model F D}

/-- Which mode of the importer corresponds to which mode of an FMI 3.0 FMU. -/
def Corresponds3 : FMIState → Mode → Prop
  | .instantiated, .instantiated | .initializationMode, .initializationMode
  | .eventMode, .eventMode | .continuousTimeMode, .continuousTimeMode
  | .stepMode, .stepMode | .terminated, .terminated
  | .configurationMode, .configurationMode | .reconfigurationMode, .reconfigurationMode
  | .clockActivationMode, .clockActivationMode => True
  | _, _ => False

/-- A new FMU instance and the importer instance after the call of the wrapper. -/
inductive FMI3New (m : Model F D) : FMIInstance → Comp F D → Prop
  | me {name token resource loggingOn logger mem c l} :
      FMI3.instantiateModelExchange m name token resource loggingOn logger mem = (some c, l) →
      FMI3New m (FMI3Instantiated .modelExchange false) c
  | cs {name token resource loggingOn eventModeUsed earlyReturnAllowed logger iu mem c l} :
      FMI3.instantiateCoSimulation m name token resource loggingOn eventModeUsed earlyReturnAllowed
        logger iu mem = (some c, l) →
      FMI3New m (FMI3Instantiated .coSimulation eventModeUsed) c
  | se {name token resource loggingOn logger clockUpdate lock unlock mem c l} :
      FMI3.instantiateScheduledExecution m name token resource loggingOn logger clockUpdate lock
        unlock mem = (some c, l) →
      FMI3New m (FMI3Instantiated .scheduledExecution false) c

/-- Importer and FMU after instantiation and calls through wrapper functions that all returned
`FMIOK`. Every call must fulfil `ok` (world before the call, call). -/
inductive FMI3Session (m : Model F D) (ok : FMI3.World F D → FMI3.Op F → Prop) :
    Wrapped (FMI3.World F D) → Prop
  | new {i c w} : FMI3New m i c → w.Initial c → FMI3Session m ok ⟨i, w⟩
  | call {x x' fuel op} : FMI3Session m ok x → FMI3Call m fuel x op = .ret (x', .OK) →
      ok x.world op → FMI3Session m ok x'

/-- Not `EnterStepMode`, and `SetFMUState` only with a state saved in the present mode. -/
def Recorded (w : FMI3.World F D) : FMI3.Op F → Prop
  | .enterStepMode => False
  | .setFMUState i => ∀ s, w.slots i = some s → s.ctx.state = w.inst.ctx.state
  | _ => True

/-- `eventModeUsed` never changes (also not by restoring a state of the same instance). -/
theorem eventModeUsed_inv (b : Bool) :
    FMI3.HistInv m fun c => c.eventModeUsed = b where
  lift h _ _ := h
  log msg h := by unfold Comp.logError; exact h
  dirty _ h := h
  nx h := h
  nz h := h
  prez _ h := h
  adv h _ := by unfold advanceTime; exact h
  iu h _ := h
  ncp _ h := h
  x _ h := h
  dx _ h := h
  z _ h := h
  term h := h
  enterInit _ _ h _ := h
  enterConfig h _ := h
  exitConfig h _ := h
  reset h := by
    intro x e
    cases e
    exact h
  restore _ h := h
  enterEvent h _ := h
  enterCT h _ := h
  setTime _ h _ := h
  exitInit h _ := h
  enterStep h _ := h
  flags _ _ h := h

theorem FMI3New.start {i : FMIInstance} {c : Comp F D} (h : FMI3New m i c) :
    i.state = .instantiated ∧ c.ctx.state = .instantiated ∧ c.ctx.typ = i.interfaceType ∧
      (i.interfaceType = .coSimulation → c.eventModeUsed = i.eventModeUsed) := by
  cases h with
  | me h =>
    have := (FMI3.New.me h).ctx
    exact ⟨rfl, this.2.1, this.1, fun h => by cases h⟩
  | cs h =>
    have hc := (FMI3.New.cs h).ctx
    refine ⟨rfl, hc.2.1, hc.1, fun _ => ?_⟩
    unfold FMI3.instantiateCoSimulation at h
    split at h
    · simp at h
    · simp only [Prod.mk.injEq, Option.map_eq_some_iff] at h
      obtain ⟨⟨c₀, -, rfl⟩, -⟩ := h
      rfl
  | se h =>
    have := (FMI3.New.se h).ctx
    exact ⟨rfl, this.2.1, this.1, fun h => by cases h⟩

/-- **C44, partial.** For every Reference FMU, interface type and sequence of calls through the
`FMI3*` functions that all return `FMIOK`, the mode recorded in the importer instance is the mode the
FMU is in, provided that `FMI3EnterStepMode` is not called and that every FMU state restored with
`FMI3SetFMUState` was saved in the mode the FMU is in when it is restored. Missing:
`FMI3EnterStepMode` and restoring a state of another mode, for which it is false. -/
theorem C44_partial (hm : RefFMU3 m) {x : Wrapped (FMI3.World F D)}
    (h : FMI3Session m Recorded x) :
    Corresponds3 x.instance'.state x.world.inst.ctx.state := by
  have hk := hm.eff.okOrError
  suffices x.world.inst.ctx.typ = x.instance'.interfaceType ∧
      (x.instance'.interfaceType = .coSimulation →
        FMI3.WInv (fun c => c.eventModeUsed = x.instance'.eventModeUsed) x.world) ∧
      Corresponds3 x.instance'.state x.world.inst.ctx.state from this.2.2
  induction h with
  | new h1 h2 =>
    rename_i i c w
    obtain ⟨h3, h4, h5, h6⟩ := h1.start
    have hi : w.inst = c := h2.inst
    refine ⟨by rw [hi]; exact h5, fun h => FMI3.WInv.initial h2 (h6 h), ?_⟩
    rw [hi, h3, h4]; trivial
  | call _ e hok ih =>
    rename_i x x' fuel op _
    unfold FMI3Call at e
    split at e
    · cases e
    · rename_i st hst
      obtain ⟨⟨w', s, o'⟩, e1, e2⟩ := Outcome.bind_eq_ret.1 e
      cases e2
      obtain ⟨h1, h2⟩ := FMI3.step_mode' hk _ e1
      obtain ⟨ih1, ih2, ih3⟩ := ih
      simp only at h1 h2 ⊢
      refine ⟨h1.trans ih1, fun h => FMI3.step_inv hk (eventModeUsed_inv _) (ih2 h) op _ e1, ?_⟩
      rcases h2 with ⟨h, _⟩ | ⟨_, ha, h2⟩ | ⟨_, h, _⟩
      · cases h
      · rw [h2]
        cases op with
        | setFMUState i =>
          simp only [FMI3State, FMI3.Op.fn, Option.some.injEq] at hst
          subst hst
          simp only [FMI3.Spec.modeAfter]
          cases hs : x.world.slots i with
          | none => exact ih3
          | some s => simp only [hok s hs]; exact ih3
        | exitInitializationMode =>
          simp only [FMI3State, FMI3.Op.fn, Option.some.injEq] at hst
          subst hst
          simp only [FMI3.Spec.modeAfter, FMI3.Op.fn, FMI3.Spec.nextMode, ih1]
          cases ht : x.instance'.interfaceType with
          | modelExchange => trivial
          | scheduledExecution => trivial
          | coSimulation =>
            rw [(ih2 ht).inst]
            cases x.instance'.eventModeUsed <;> trivial
        | enterConfigurationMode =>
          simp only [FMI3State, FMI3.Op.fn, Option.some.injEq] at hst
          subst hst
          simp only [FMI3.Spec.modeAfter, FMI3.Op.fn, FMI3.Spec.nextMode]
          revert ih3
          cases x.instance'.state <;> cases x.world.inst.ctx.state <;> simp [Corresponds3]
        | exitConfigurationMode =>
          simp only [FMI3State, FMI3.Op.fn] at hst
          simp only [FMI3.Spec.modeAfter, FMI3.Op.fn, FMI3.Spec.nextMode, ih1]
          revert ih3 hst
          cases x.instance'.state <;> cases x.world.inst.ctx.state <;>
            cases x.instance'.interfaceType <;> simp [Corresponds3] <;> rintro rfl <;> trivial
        | enterStepMode => exact absurd hok id
        | _ =>
          simp only [FMI3State, FMI3.Op.fn, Option.some.injEq] at hst
          subst hst
          first | trivial | exact ih3
      · cases h

theorem FMI3Session.calls {ok} {fuel : Nat} : ∀ {ops : List (FMI3.Op F)} {x x' l},
    FMI3Session m ok x → FMI3Calls m fuel x ops = .ret (x', l) → (∀ s ∈ l, s = .OK) →
    (∀ op ∈ ops, ∀ w, ok w op) → FMI3Session m ok x' := by
  intro ops
  induction ops with
  | nil => intro x x' l h e _ _; cases e; exact h
  | cons op ops ih =>
    intro x x' l h e hl hok
    simp only [FMI3Calls] at e
    obtain ⟨⟨x1, s⟩, e1, e⟩ := Outcome.bind_eq_ret.1 e
    obtain ⟨⟨x2, l2⟩, e2, e⟩ := Outcome.bind_eq_ret.1 e
    cases e
    cases hl s (List.mem_cons_self ..)
    exact ih (h.call e1 (hok op (List.mem_cons_self ..) _)) e2
      (fun s h => hl s (List.mem_cons_of_mem _ h))
      (fun op ho => hok op (List.mem_cons_of_mem _ ho))

/-- Run calls through the wrapper on a new Co-Simulation instance of BouncingBall with Event Mode. -/
def ball3 (ops : List (FMI3.Op XRat)) :=
  match Ex.newCS3 BouncingBall.model true true with
  | some c => FMI3Calls BouncingBall.model 1000 ⟨FMI3Instantiated .coSimulation true, .fresh c⟩ ops
  | none => .ub

theorem ball3_session {ok ops x l} (e : ball3 ops = .ret (x, l)) (hl : ∀ s ∈ l, s = .OK)
    (h : ∀ op ∈ ops, ∀ w, ok w op) :
    FMI3Session (BouncingBall.model : Model XRat _) ok x := by
  unfold ball3 at e
  split at e
  · rename_i c hc
    exact (FMI3Session.new (.cs (Prod.ext hc rfl))
      ⟨rfl, fun _ => rfl, fun _ _ e => by cases e⟩).calls e hl h
  · cases e

/-- Non-vacuity: a session with Configuration Mode and Event Mode. -/
example : ∃ x, FMI3Session (BouncingBall.model : Model XRat _) Recorded x ∧
    x.instance'.state = .eventMode := by
  have h : (ball3 [.enterConfigurationMode, .exitConfigurationMode,
      .enterInitializationMode (.fin 0) false (.fin 0), .exitInitializationMode]).is (fun y =>
        decide (∀ s ∈ y.2, s = .OK) && decide (y.1.instance'.state = .eventMode)) = true := by
    decide +kernel
  obtain ⟨⟨x, l⟩, e, h⟩ := Outcome.exists_of_is h
  simp only [Bool.and_eq_true, decide_eq_true_eq] at h
  refine ⟨x, ball3_session e h.1 ?_, h.2⟩
  intro op ho w
  simp only [List.mem_cons, List.not_mem_nil, or_false] at ho
  rcases ho with rfl | rfl | rfl | rfl <;> trivial

/-- **C44 is violated** by the usual Co-Simulation sequence with Event Mode: after
`FMI3EnterStepMode` and a step the importer believes the FMU to be in Event Mode, but it is in Step
Mode. All calls return OK and no state is restored. -/
theorem C44_violated_enterStepMode :
    ∃ x, FMI3Session (BouncingBall.model : Model XRat _) (fun _ op => op.fn ≠ .setFMUState) x ∧
      x.instance'.state = .eventMode ∧ x.world.inst.ctx.state = .stepMode := by
  have h : (ball3 [.enterInitializationMode (.fin 0) false (.fin 0), .exitInitializationMode,
      .enterStepMode, .doStep (.fin 0) (.fin (1 / 100)) Ex.stepOut]).is (fun y =>
        decide (∀ s ∈ y.2, s = .OK) && decide (y.1.instance'.state = .eventMode) &&
        decide (y.1.world.inst.ctx.state = .stepMode)) = true := by decide +kernel
  obtain ⟨⟨x, l⟩, e, h⟩ := Outcome.exists_of_is h
  simp only [Bool.and_eq_true, decide_eq_true_eq] at h
  refine ⟨x, ball3_session e h.1.1 ?_, h.1.2, h.2⟩
  intro op ho w
  simp only [List.mem_cons, List.not_mem_nil, or_false] at ho
  rcases ho with rfl | rfl | rfl | rfl <;> simp [FMI3.Op.fn]

/-- **C44 is violated** by `FMI3SetFMUState`. -/
theorem C44_violated_setFMUState :
    ∃ x, FMI3Session (BouncingBall.model : Model XRat _) (fun _ op => op.fn ≠ .enterStepMode) x ∧
      x.instance'.state = .eventMode ∧ x.world.inst.ctx.state = .initializationMode := by
  have h : (ball3 [.enterInitializationMode (.fin 0) false (.fin 0), .getFMUState 0,
      .exitInitializationMode, .setFMUState 0]).is (fun y =>
        decide (∀ s ∈ y.2, s = .OK) && decide (y.1.instance'.state = .eventMode) &&
        decide (y.1.world.inst.ctx.state = .initializationMode)) = true := by decide +kernel
  obtain ⟨⟨x, l⟩, e, h⟩ := Outcome.exists_of_is h
  simp only [Bool.and_eq_true, decide_eq_true_eq] at h
  refine ⟨x, ball3_session e h.1.1 ?_, h.1.2, h.2⟩
  intro op ho w
  simp only [List.mem_cons, List.not_mem_nil, or_false] at ho
  rcases ho with rfl | rfl | rfl | rfl <;> simp [FMI3.Op.fn]

end Verif.Importer
