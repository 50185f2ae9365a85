import Verif.Importer.Wrapper
import Verif.Lemmas.Modes2
import Verif.Lemmas.Reach2
import Verif.Examples

/-!
# C43: the FMI 2.0 wrapper knows the mode of the FMU

False in general: `FMI2SetFMUstate` does not record the mode that it restores (`C43_violated`).
-/

set_option linter.unusedSectionVars false

namespace Verif.Importer
open Verif
variable {F D : Type} [Arith F] [HasInf F] {m : Model F D}

/-- Which mode of the importer corresponds to which mode of an FMI 2.0 FMU. -/
def Corresponds2 : FMIState → Mode → Prop
  | .instantiated, .instantiated | .initializationMode, .initializationMode
  | .eventMode, .eventMode | .continuousTimeMode, .continuousTimeMode
  | .stepMode, .stepComplete | .terminated, .terminated => True
  | _, _ => False

/-- Importer and FMU after instantiation and calls through wrapper functions that all returned
`FMIOK`. Restored states must fulfil `ok` (world before the call, saved state). -/
inductive FMI2Session (m : Model F D) (ok : FMI2.World F D → Comp F D → Prop) :
    Wrapped (FMI2.World F D) → Prop
  | new {t name guid resource functions loggingOn mem c l w} :
      FMI2.instantiate m name t guid resource functions loggingOn mem = (some c, l) →
      w.Initial c → FMI2Session m ok ⟨FMI2Instantiated t, w⟩
  | call {x x' fuel op o} : FMI2Session m ok x → FMI2Call m fuel x op = .ret (x', .OK, o) →
      (∀ i s, op = .setFMUstate i → x.world.slots i = some s → ok x.world s) →
      FMI2Session m ok x'

/-- **C43, partial.** For every Reference FMU and every sequence of calls through the `FMI2*`
functions that all return `FMIOK`, the mode recorded in the importer instance is the mode the FMU is
in, provided that every FMU state restored with `FMI2SetFMUstate` was saved in the mode the FMU is
in when it is restored. Missing: restoring a state of another mode, for which it is false. -/
theorem C43_partial (hm : RefFMU2 m) {x : Wrapped (FMI2.World F D)}
    (h : FMI2Session m (fun w s => s.ctx.state = w.inst.ctx.state) x) :
    Corresponds2 x.instance'.state x.world.inst.ctx.state := by
  suffices x.world.inst.ctx.typ = x.instance'.interfaceType ∧
      Corresponds2 x.instance'.state x.world.inst.ctx.state from this.2
  induction h with
  | new h1 h2 =>
    rename_i w
    have hi : w.inst = _ := h2.inst
    have := FMI2.instantiate_ctx h1
    rw [hi]
    exact ⟨this.1, by simp [this.2, FMI2Instantiated, Corresponds2]⟩
  | call _ e hok ih =>
    rename_i x x' fuel op o _
    obtain ⟨⟨w', s, o'⟩, e1, e2⟩ := Outcome.bind_eq_ret.1 e
    cases e2
    obtain ⟨h1, h2⟩ := FMI2.step_mode' hm.eff.okOrError _ e1
    simp only at h1 h2 ⊢
    refine ⟨h1.trans ih.1, ?_⟩
    rcases h2 with ⟨h, _⟩ | ⟨_, ha, h2⟩
    · cases h
    · rw [h2]
      cases op with
      | setFMUstate i =>
        simp only [FMI2.Spec.modeAfter, FMI2State, FMI2.Op.fn]
        cases hs : x.world.slots i with
        | none => exact ih.2
        | some s =>
          simp only [hok i s rfl hs]
          exact ih.2
      | exitInitializationMode =>
        simp only [FMI2.Spec.modeAfter, FMI2State, FMI2.Op.fn, FMI2.Spec.nextMode, ih.1]
        split <;> trivial
      | _ => first | trivial | exact ih.2

theorem FMI2Session.calls {ok} {fuel : Nat} : ∀ {ops : List (FMI2.Op F)} {x x' l},
    FMI2Session m ok x → FMI2Calls m fuel x ops = .ret (x', l) → (∀ s ∈ l, s = .OK) →
    (∀ w s, ok w s) ∨ (∀ op ∈ ops, op.fn ≠ .setFMUstate) → FMI2Session m ok x' := by
  intro ops
  induction ops with
  | nil => intro x x' l h e _ _; cases e; exact h
  | cons op ops ih =>
    intro x x' l h e hl hok
    simp only [FMI2Calls] at e
    obtain ⟨⟨x1, s, o⟩, e1, e⟩ := Outcome.bind_eq_ret.1 e
    obtain ⟨⟨x2, l2⟩, e2, e⟩ := Outcome.bind_eq_ret.1 e
    cases e
    cases hl s (List.mem_cons_self ..)
    refine ih (h.call e1 ?_) e2 (fun s h => hl s (List.mem_cons_of_mem _ h))
      (hok.imp_right fun h op ho => h op (List.mem_cons_of_mem _ ho))
    intro i s hi _
    rcases hok with h | h
    · exact h _ _
    · exact absurd (by rw [hi]; rfl) (h op (List.mem_cons_self ..))

/-- Run calls through the wrapper on a new Dahlquist instance. -/
def dahlquist2 (ops : List (FMI2.Op XRat)) :=
  match Ex.new2 Dahlquist.model .coSimulation with
  | some c => FMI2Calls Dahlquist.model 1000 ⟨FMI2Instantiated .coSimulation, .fresh c⟩ ops
  | none => .ub

theorem dahlquist2_session {ok ops x l} (e : dahlquist2 ops = .ret (x, l)) (hl : ∀ s ∈ l, s = .OK)
    (h : (∀ w s, ok w s) ∨ (∀ op ∈ ops, op.fn ≠ .setFMUstate)) :
    FMI2Session (Dahlquist.model : Model XRat _) ok x := by
  unfold dahlquist2 at e
  split at e
  · rename_i c hc
    exact (FMI2Session.new (Prod.ext hc rfl)
      ⟨rfl, fun _ => rfl, fun _ _ e => by cases e⟩).calls e hl h
  · cases e

/-- Initialise, save the state, make a step, restore the state: the hypotheses are met although a
state is restored. -/
example : ∃ x, FMI2Session (Dahlquist.model : Model XRat _)
    (fun w s => s.ctx.state = w.inst.ctx.state) x ∧ x.instance'.state = .stepMode ∧
    x.world.inst.nSteps = 0 := by
  have h : (dahlquist2 [.setupExperiment (.fin 0) false (.fin 0), .enterInitializationMode,
      .exitInitializationMode, .getFMUstate 0,
      .doStep (.fin 0) (.fin 1)]).is (fun y => decide (∀ s ∈ y.2, s = .OK) &&
        decide (y.1.world.inst.nSteps = 10) &&
        (y.1.world.slots 0).all (fun s => decide (s.ctx.state = y.1.world.inst.ctx.state)) &&
        (FMI2Call Dahlquist.model 0 y.1 (.setFMUstate 0)).is fun z =>
          decide (z.2.1 = .OK) && decide (z.1.instance'.state = .stepMode) &&
          decide (z.1.world.inst.nSteps = 0)) = true := by decide +kernel
  obtain ⟨⟨x, l⟩, e, h⟩ := Outcome.exists_of_is h
  simp only [Bool.and_eq_true, decide_eq_true_eq] at h
  obtain ⟨⟨⟨h1, -⟩, h2⟩, h3⟩ := h
  obtain ⟨⟨x', s, o⟩, e', h3⟩ := Outcome.exists_of_is h3
  simp only [Bool.and_eq_true, decide_eq_true_eq] at h3
  obtain ⟨⟨rfl, h4⟩, h5⟩ := h3
  refine ⟨x', (dahlquist2_session e h1 (Or.inr (by decide))).call e' ?_, h4, h5⟩
  intro i s hi hs
  cases hi
  rw [hs] at h2; simpa using h2

/-- **C43 is violated**: after saving a state in Initialization Mode, leaving this mode and
restoring the state the importer believes the FMU to be in Step Mode, but it is in Initialization
Mode. All calls return OK. -/
theorem C43_violated : ∃ x, FMI2Session (Dahlquist.model : Model XRat _) (fun _ _ => True) x ∧
    x.instance'.state = .stepMode ∧ x.world.inst.ctx.state = .initializationMode := by
  have h : (dahlquist2 [.enterInitializationMode, .getFMUstate 0, .exitInitializationMode,
      .setFMUstate 0]).is (fun y => decide (∀ s ∈ y.2, s = .OK) &&
        decide (y.1.instance'.state = .stepMode) &&
        decide (y.1.world.inst.ctx.state = .initializationMode)) = true := by decide +kernel
  obtain ⟨⟨x, l⟩, e, h⟩ := Outcome.exists_of_is h
  simp only [Bool.and_eq_true, decide_eq_true_eq] at h
  exact ⟨x, dahlquist2_session e h.1.1 (Or.inl fun _ _ => trivial), h.1.2, h.2⟩

end Verif.Importer
