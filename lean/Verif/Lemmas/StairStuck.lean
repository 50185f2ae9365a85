import Verif.Lemmas.Stairs
import Verif.Lemmas.Frozen

/-!
# The Stair FMU when the time event is stepped over
-/

set_option linter.unusedSectionVars false

namespace Verif

/-- A property that the program keeps besides the modes. -/
theorem Importer.Euler.Drives.keeping {F W V : Type} [Arith F] [HasInf F] {api : Importer.Euler.Api F W} {record : W → Outcome (W × Status × List V)}
    {cfg : Importer.Euler.Config F} {E C T : W → Prop} {J : EventInfo F → Prop} {P : List V → Prop} {R : W → Prop}
    (H : Importer.Euler.Drives api record cfg E C T J fun _ => True) (hx : cfg.nx = 0) (hz : cfg.nz = 0)
    (update : ∀ {w i w' i'}, R w → api.update w i = .ret (w', .OK, i') → R w' ∧ i'.terminateSimulation = false)
    (enterCT : ∀ {w w'}, R w → api.enterContinuousTimeMode w = .ret (w', .OK, ()) → R w')
    (enterEM : ∀ {w w'}, R w → api.enterEventMode w = .ret (w', .OK, ()) → R w')
    (setTime : ∀ {w w' k}, R w → api.setTime w (timeAfter cfg.h k) = .ret (w', .OK, ()) → R w')
    (completed : ∀ {w w' a b x}, R w → api.completed w a b = .ret (w', .OK, x) → R w')
    (hr : ∀ {w w' vs}, R w → record w = .ret (w', .OK, vs) → R w' ∧ P vs) :
    Importer.Euler.Drives api record cfg (fun w => E w ∧ R w) (fun w => C w ∧ R w) T (fun i => J i ∧ i.terminateSimulation = false) P where
  update := by
    rintro w i ⟨h, h1⟩
    obtain ⟨w', i', e, a, b, c, f⟩ := H.update (i := i) h
    exact ⟨w', i', e, a, ⟨b, (update h1 e).2⟩, c, fun ht => ⟨f ht, (update h1 e).1⟩⟩
  enterCT := by
    rintro w ⟨h, h1⟩
    obtain ⟨w', e, a⟩ := H.enterCT h
    exact ⟨w', e, a, enterCT h1 e⟩
  enterEM := by
    rintro w ⟨h, h1⟩
    obtain ⟨w', e, a⟩ := H.enterEM h
    exact ⟨w', e, a, enterEM h1 e⟩
  getStates := by intro w l _ h; omega
  getNominals := by intro w l _ h; omega
  getDerivatives := by intro w l _ h; omega
  getIndicators := by intro w l _ h; omega
  setStates := by intro w l _ h; omega
  setTime := by
    rintro w k ⟨h, h1⟩
    obtain ⟨w', e, a⟩ := H.setTime (k := k) h
    exact ⟨w', e, a, setTime h1 e⟩
  completed := by
    rintro w a b ⟨h, h1⟩
    obtain ⟨w', e, c⟩ := H.completed (a := a) (b := b) h
    exact ⟨w', e, c, completed h1 e⟩
  record := by
    rintro w ⟨h, h1⟩
    obtain ⟨w', vs, e, c, -⟩ := H.record h
    obtain ⟨k1, k2⟩ := hr h1 e
    exact ⟨w', vs, e, ⟨c, k1⟩, k2⟩
  stop h := H.stop h.1
  info h := ⟨H.info h.1, rfl⟩

namespace Stair
variable {F : Type} [Arith F] [HasInf F]

/-- The first stair has not been taken, and it is not the time to take it. -/
structure Stuck (c : Comp F Data) : Prop where
  counter : c.mv.data.counter = 1
  next : c.mv.nextEventTime = Arith.lit 1
  time : isClose c.ctx.time (Arith.lit 1 : F) = false

theorem Stuck.of_eq {c c' : Comp F Data} (h : Stuck c) (h1 : c'.mv.data = c.mv.data) (h2 : c'.mv.nextEventTime = c.mv.nextEventTime)
    (h3 : c'.ctx.time = c.ctx.time) : Stuck c' := ⟨by rw [h1]; exact h.counter, by rw [h2]; exact h.next, by rw [h3]; exact h.time⟩

theorem stuck_event {c : Comp F Data} (h : Stuck c) {mv' s u} (e : eventUpdate c.ctx c.mv = .ret (mv', s, u)) :
    (mv'.data = c.mv.data ∧ mv'.nextEventTime = c.mv.nextEventTime) ∧ s = .OK ∧ mv'.terminateSimulation = false := by
  unfold eventUpdate at e
  rw [h.next, h.time, Bool.and_false, if_neg (by simp)] at e
  simp only [Outcome.ret_bind, h.counter] at e
  rw [if_neg (by decide)] at e
  cases e
  exact ⟨⟨rfl, rfl⟩, rfl, by simp⟩

theorem stuck_quiet : Quiet (model : Model F Data) (fun f => f ≠ .set) Stuck where
  lift {c f mv' s} h hf e := by
    by_cases hE : f = .event
    · subst hE
      cases e with
      | event h1 e =>
        cases h1
        have := stuck_event h e
        exact h.of_eq this.1.1 this.1.2 rfl
    · exact h.of_eq (step_data hf hE e) ((eff _ _ _ _ _ e).flags hE).2.2.2.2 rfl
  log msg h := by
    unfold Comp.logError Verif.logError
    split <;> exact h.of_eq rfl rfl rfl
  dirty b h := h.of_eq rfl rfl rfl

theorem stuck_invX2 : FMI2.CallInvX (fun fn => fn ∈ [FMI2.Fn.doStep, .setReal, .setInteger, .setBoolean, .setString, .setFMUstate, .reset, .setTime, .setupExperiment])
    (fun f => f ≠ .set) (model : Model F Data) (fun _ => True) Stuck where
  toQuiet := stuck_quiet
  calls := by
    intro fn hX f hf
    cases fn <;> simp [FMI2.Fn.calls] at hX hf ⊢ <;> first | (subst hf; simp) | (rcases hf with rfl | rfl <;> simp)
  step h := absurd (by simp) h
  nx _ _ h := h.of_eq rfl rfl rfl
  nz _ _ h := h.of_eq rfl rfl rfl
  prez _ _ _ h := h.of_eq rfl rfl rfl
  term h := h.of_eq rfl rfl rfl
  setup h := absurd (by simp) h
  enterInit _ _ h _ := h.of_eq rfl rfl rfl
  reset h := absurd (by simp) h
  restore h := absurd (by simp) h
  enterEvent _ _ h _ := h.of_eq rfl rfl rfl
  enterCT _ _ h _ := h.of_eq rfl rfl rfl
  setTime h := absurd (by simp) h
  exitInit _ _ h _ := h.of_eq rfl rfl rfl

theorem stuck_invX3 : FMI3.CallInvX (fun fn => (∃ t, fn = .set t) ∨ fn ∈ [FMI3.Fn.doStep, .setFMUState, .reset, .setTime, .enterInitializationMode])
    (fun f => f ≠ .set) (model : Model F Data) (fun _ => True) Stuck where
  toQuiet := stuck_quiet
  calls := by
    intro fn hX f hf
    cases fn <;> simp [FMI3.Fn.calls] at hX hf ⊢ <;> first | (subst hf; simp) | (rcases hf with rfl | rfl <;> simp)
  step h := absurd (by simp) h
  nx _ _ h := h.of_eq rfl rfl rfl
  nz _ _ h := h.of_eq rfl rfl rfl
  prez _ _ _ h := h.of_eq rfl rfl rfl
  term h := h.of_eq rfl rfl rfl
  enterInit h := absurd (by simp) h
  enterConfig _ _ h _ := h.of_eq rfl rfl rfl
  exitConfig _ _ h _ := h.of_eq rfl rfl rfl
  reset h := absurd (by simp) h
  restore h := absurd (by simp) h
  enterEvent _ _ h _ := h.of_eq rfl rfl rfl
  enterCT _ _ h _ := h.of_eq rfl rfl rfl
  setTime h := absurd (by simp) h
  enterStep _ _ h _ := h.of_eq rfl rfl rfl
  exitInit _ _ h _ := h.of_eq rfl rfl rfl

end Stair

namespace FMI2
open Stair
variable {F : Type} [Arith F] [HasInf F] {w w' : World F Data} {fuel : Nat} {s : Status} {o : Out F}

theorem stuck_step {op : Op F} (h : Stuck w.inst)
    (hX : op.fn ∉ [Fn.doStep, .setReal, .setInteger, .setBoolean, .setString, .setFMUstate, .reset, .setTime, .setupExperiment, .setDebugLogging])
    (e : step Stair.model fuel w op = .ret (w', s, o)) : Stuck w'.inst := by
  simp only [List.mem_cons, List.not_mem_nil, or_false, not_or] at hX
  exact step_keepX Stair.eff.okOrError stuck_invX2 (fun _ _ _ _ => trivial) h (fun e => absurd e hX.2.2.2.2.2.2.2.2.2) (by
    simp only [List.mem_cons, List.not_mem_nil, or_false, not_or]; tauto) _ e

theorem stuck_setTime {t : F} (h : w.inst.mv.data.counter = 1) (hn : w.inst.mv.nextEventTime = Arith.lit 1) (ht : isClose t (Arith.lit 1 : F) = false)
    (e : step Stair.model fuel w (.setTime t) = .ret (w', .OK, o)) : Stuck w'.inst := by
  simp only [step, World.run, setTime, begin, beginFunction] at e
  obtain ⟨⟨c1, s1, o1⟩, e2, e1⟩ := Outcome.bind_eq_ret.1 e
  cases e1
  split at e2 <;> cases e2
  exact ⟨h, hn, ht⟩

theorem stuck_setup {a b : F} {d : Bool} (h : w.inst.mv.data.counter = 1) (hn : w.inst.mv.nextEventTime = Arith.lit 1) (ht : isClose a (Arith.lit 1 : F) = false)
    (e : step Stair.model fuel w (.setupExperiment a d b) = .ret (w', .OK, o)) : Stuck w'.inst := by
  simp only [step, World.run, setupExperiment, begin, beginFunction] at e
  obtain ⟨⟨c1, s1, o1⟩, e2, e1⟩ := Outcome.bind_eq_ret.1 e
  cases e1
  split at e2 <;> cases e2
  exact ⟨h, hn, ht⟩

theorem stuck_update {i i' : EventInfo F} (h : Stuck w.inst) (e : (Importer.Euler.api2 Stair.model []).update w i = .ret (w', .OK, i')) :
    Stuck w'.inst ∧ i'.terminateSimulation = false := by
  obtain ⟨⟨w1, s1, o1⟩, e1, e2⟩ := Outcome.bind_eq_ret.1 e
  have hw := stuck_step h (by simp [Op.fn]) e1
  simp only [step, World.run, newDiscreteStates, begin, beginFunction] at e1
  obtain ⟨⟨c2, s2, o2⟩, e3, e1⟩ := Outcome.bind_eq_ret.1 e1
  split at e3
  · simp only [Stair.model, call] at e3
    obtain ⟨⟨c3, s3, u⟩, e4, e3⟩ := Outcome.bind_eq_ret.1 e3
    obtain ⟨mv, e5, rfl⟩ := lift_eq_ret.1 e4
    obtain ⟨-, rfl, ht⟩ := stuck_event h e5
    cases e3
    cases e1
    cases e2
    exact ⟨hw, ht⟩
  · cases e3; cases e1; cases e2

end FMI2

namespace FMI3
open Stair
variable {F : Type} [Arith F] [HasInf F] {w w' : World F Data} {fuel : Nat} {s : Status} {o : Out F}

theorem stuck_step {op : Op F} (h : Stuck w.inst) (hs : ∀ t, op.fn ≠ .set t)
    (hX : op.fn ∉ [Fn.doStep, .setFMUState, .reset, .setTime, .enterInitializationMode, .setDebugLogging])
    (e : step Stair.model fuel w op = .ret (w', s, o)) : Stuck w'.inst := by
  simp only [List.mem_cons, List.not_mem_nil, or_false, not_or] at hX
  exact step_keepX Stair.eff.okOrError stuck_invX3 (fun _ _ _ _ => trivial) h (fun e => absurd e hX.2.2.2.2.2) (by
    rintro (⟨t, h⟩ | h)
    · exact hs t h
    · simp only [List.mem_cons, List.not_mem_nil, or_false] at h; tauto) _ e

theorem stuck_setTime {t : F} (h : w.inst.mv.data.counter = 1) (hn : w.inst.mv.nextEventTime = Arith.lit 1) (ht : isClose t (Arith.lit 1 : F) = false)
    (e : step Stair.model fuel w (.setTime t) = .ret (w', .OK, o)) : Stuck w'.inst := by
  simp only [step, World.run, setTime, begin, beginFunction] at e
  obtain ⟨⟨c1, s1, o1⟩, e2, e1⟩ := Outcome.bind_eq_ret.1 e
  cases e1
  split at e2 <;> cases e2
  exact ⟨h, hn, ht⟩

theorem stuck_update {i i' : EventInfo F} (h : Stuck w.inst) (e : (Importer.Euler.api3 Stair.model []).update w i = .ret (w', .OK, i')) :
    Stuck w'.inst ∧ i'.terminateSimulation = false := by
  obtain ⟨⟨w1, s1, o1⟩, e1, e2⟩ := Outcome.bind_eq_ret.1 e
  have hw := stuck_step h (by simp [Op.fn]) (by simp [Op.fn]) e1
  simp only [step, World.run, updateDiscreteStates, begin, beginFunction] at e1
  obtain ⟨⟨c2, s2, o2⟩, e3, e1⟩ := Outcome.bind_eq_ret.1 e1
  split at e3
  · simp only [Stair.model, call] at e3
    obtain ⟨⟨c3, s3, u⟩, e4, e3⟩ := Outcome.bind_eq_ret.1 e3
    obtain ⟨mv, e5, rfl⟩ := lift_eq_ret.1 e4
    obtain ⟨-, rfl, ht⟩ := stuck_event h e5
    cases e3
    cases e1
    cases e2
    exact ⟨hw, ht⟩
  · cases e3; cases e1; cases e2

theorem stuck_enterInit {a b : F} {d : Bool} (h : w.inst.mv.data.counter = 1) (hn : w.inst.mv.nextEventTime = Arith.lit 1)
    (ht : isClose a (Arith.lit 1 : F) = false) (e : step Stair.model fuel w (.enterInitializationMode a d b) = .ret (w', .OK, o)) : Stuck w'.inst := by
  simp only [step, World.run, enterInitializationMode, begin, beginFunction] at e
  obtain ⟨⟨c1, s1, o1⟩, e2, e1⟩ := Outcome.bind_eq_ret.1 e
  cases e1
  split at e2 <;> cases e2
  exact ⟨h, hn, ht⟩

end FMI3
end Verif
