import Verif.Lemmas.ExReach
import Verif.Spec.Schedule
import Verif.Lemmas.LensReads
import Verif.Lemmas.Readable

/-! # Examples of simulations -/

namespace Verif.Ex
variable {D D' : Type} {m : Model XRat D} {m' : Model XRat D'}

theorem calls2 {ok} {fuel : Nat} : ∀ (ops : List (FMI2.Op XRat)) {w₀ w w' : FMI2.World XRat D} {outs}, FMI2.Calls m ok w₀ w →
    FMI2.run m fuel w ops = .ret (w', outs) → (∀ op ∈ ops, ∀ w, ok w op) → FMI2.Calls m ok w₀ w' := by
  intro ops
  induction ops with
  | nil => intro w₀ w w' outs h e _; cases e; exact h
  | cons op ops ih =>
    intro w₀ w w' outs h e hok
    unfold FMI2.run at e
    obtain ⟨⟨w1, s, o⟩, e1, e⟩ := Outcome.bind_eq_ret.1 e
    obtain ⟨⟨w2, outs2⟩, e2, e⟩ := Outcome.bind_eq_ret.1 e
    cases e
    exact ih (h.call (hok _ (.head _) _) e1) e2 fun op h => hok op (.tail _ h)

theorem calls3 {ok} {fuel : Nat} : ∀ (ops : List (FMI3.Op XRat)) {w₀ w w' : FMI3.World XRat D} {outs}, FMI3.Calls m ok w₀ w →
    FMI3.run m fuel w ops = .ret (w', outs) → (∀ op ∈ ops, ∀ w, ok w op) → FMI3.Calls m ok w₀ w' := by
  intro ops
  induction ops with
  | nil => intro w₀ w w' outs h e _; cases e; exact h
  | cons op ops ih =>
    intro w₀ w w' outs h e hok
    unfold FMI3.run at e
    obtain ⟨⟨w1, s, o⟩, e1, e⟩ := Outcome.bind_eq_ret.1 e
    obtain ⟨⟨w2, outs2⟩, e2, e⟩ := Outcome.bind_eq_ret.1 e
    cases e
    exact ih (h.call (hok _ (.head _) _) e1) e2 fun op h => hok op (.tail _ h)

theorem prepared2 {ops w outs} (h : run2 m .coSimulation ops = .ret (w, outs))
    (hops : ∀ op ∈ ops, op.fn ∉ [FMI2.Fn.doStep, .newDiscreteStates, .setFMUstate]) : FMI2.Prepared m w := by
  unfold run2 at h
  split at h
  · next c hc => exact ⟨_, _, _, _, _, _, c, _, .fresh c, Prod.ext hc rfl,
      ⟨rfl, fun _ => rfl, fun _ _ e => by cases e⟩, calls2 ops .none h fun op h _ => hops op h⟩
  · cases h

theorem prepared3 {emu era : Bool} {ops w outs} (h : runCS3 m emu era ops = .ret (w, outs))
    (hops : ∀ op ∈ ops, op.fn ∉ [FMI3.Fn.doStep, .updateDiscreteStates, .setFMUState, .enterStepMode]) :
    FMI3.Prepared m emu era w := by
  unfold runCS3 at h
  split at h
  · next c hc => exact ⟨_, _, _, _, _, _, _, c, _, .fresh c, Prod.ext hc rfl,
      ⟨rfl, fun _ => rfl, fun _ _ e => by cases e⟩, calls3 ops .none h fun op h _ => hops op h⟩
  · cases h

/-- Initialise with the calls `pre`, leave the Initialization Mode and simulate with the calls `ops`. -/
def sim2 (m : Model XRat D) (pre ops : List (FMI2.Op XRat)) (p : FMI2.World XRat D → FMI2.World XRat D → Bool) : Bool :=
  (run2 m .coSimulation pre).is fun x => (FMI2.step m 1000 x.1 .exitInitializationMode).is fun y => decide (y.2.1 = .OK) &&
    (FMI2.run m 1000 y.1 ops).is fun z => z.2.all (fun p => decide (p.1 ≠ .Error)) && p y.1 z.1

def sim3 (m : Model XRat D) (emu era : Bool) (pre ops : List (FMI3.Op XRat)) (p : FMI3.World XRat D → FMI3.World XRat D → Bool) :
    Bool :=
  (runCS3 m emu era pre).is fun x => (FMI3.step m 1000 x.1 .exitInitializationMode).is fun y => decide (y.2.1 = .OK) &&
    (FMI3.run m 1000 y.1 ops).is fun z => z.2.all (fun p => decide (p.1 = .OK)) && p y.1 z.1

theorem simulates2 {start : FMI2.World XRat D → Prop} {pre ops p} (h : sim2 m pre ops p = true)
    (hst : ∀ w outs, run2 m .coSimulation pre = .ret (w, outs) → start w) (hops : ∀ op ∈ ops, ¬ FMI2.Interferes op) :
    ∃ w₁ w₂, FMI2.Simulates m start w₁ w₂ (FMI2.schedule ops) ∧ p w₁ w₂ = true := by
  obtain ⟨⟨w, o⟩, e1, h⟩ := Outcome.exists_of_is h
  obtain ⟨⟨w₁, s, o1⟩, e2, h⟩ := Outcome.exists_of_is h
  simp only [Bool.and_eq_true, decide_eq_true_eq] at h
  obtain ⟨rfl, h⟩ := h
  obtain ⟨⟨w₂, outs⟩, e3, h⟩ := Outcome.exists_of_is h
  simp only [Bool.and_eq_true, List.all_eq_true, decide_eq_true_eq] at h
  exact ⟨w₁, w₂, ⟨w, _, _, _, ops, outs, hst _ _ e1, e2, hops, e3, h.1, rfl⟩, h.2⟩

theorem simulates3 {start : FMI3.World XRat D → Prop} {emu era : Bool} {pre ops p} (h : sim3 m emu era pre ops p = true)
    (hst : ∀ w outs, runCS3 m emu era pre = .ret (w, outs) → start w)
    (hops : ∀ op ∈ ops, ¬ FMI3.Interferes op ∧ op.fn ≠ .updateDiscreteStates) :
    ∃ w₁ w₂, FMI3.Simulates m start w₁ w₂ (FMI3.schedule ops) ∧ p w₁ w₂ = true := by
  obtain ⟨⟨w, o⟩, e1, h⟩ := Outcome.exists_of_is h
  obtain ⟨⟨w₁, s, o1⟩, e2, h⟩ := Outcome.exists_of_is h
  simp only [Bool.and_eq_true, decide_eq_true_eq] at h
  obtain ⟨rfl, h⟩ := h
  obtain ⟨⟨w₂, outs⟩, e3, h⟩ := Outcome.exists_of_is h
  simp only [Bool.and_eq_true, List.all_eq_true, decide_eq_true_eq] at h
  exact ⟨w₁, w₂, ⟨w, _, _, _, ops, outs, hst _ _ e1, e2, hops, e3, h.1, rfl⟩, h.2⟩

/-- Whether a variable has the value. -/
def has {R : List (VType × Nat)} (l : Lens m R) (c : Comp XRat D) (t : VType) (r : Nat) (v : t.Val XRat) : Bool :=
  decide (l.val t r c.ctx.time c.mv.data = v)

end Verif.Ex
