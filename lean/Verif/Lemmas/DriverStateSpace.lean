import Verif.Importer.StateSpaceME
import Verif.Lemmas.StateSpaceProgram
import Verif.Lemmas.Frozen
import Verif.Props.C64StateSpace

/-! # The Model Exchange program of StateSpace -/

set_option linter.unusedSectionVars false

namespace Verif
open Importer.CoSim

namespace StateSpace
section
variable {F : Type} [Arith F] [HasInf F] {c₀ : Comp F (Data F)} {d : Data F}

/-- A Model Exchange instance in the mode, whose variables have the values of `d`. -/
structure Still (c₀ : Comp F (Data F)) (d : Data F) (mode : Mode) (w : FMI3.World F (Data F)) : Prop extends FMI3.Session model c₀ mode w where
  data : upd w.inst.mv.data = upd d

/-- A legal call that changes no variable. -/
theorem Still.step (hc : c₀.ctx.typ = .modelExchange) {mode : Mode} {w : FMI3.World F (Data F)} (h : Still c₀ d mode w) (next : Mode) {op : FMI3.Op F}
    (hX : op.fn ∉ [FMI3.Fn.doStep, .setFMUState]) (hm : mode ≠ .terminated) (hd : (FMI3.step model 0 w op).All fun x => upd x.1.inst.mv.data = upd w.inst.mv.data)
    (hs : mode ∈ FMI3.Spec.allowedIn op.fn) (ha : FMI3.ArgsStateSpace model w op) (wf : FMI3.WellFormed w op)
    (hn : FMI3.Spec.nextMode op.fn .modelExchange c₀.eventModeUsed mode = next) :
    ∃ w' o, FMI3.step model 0 w op = .ret (w', .OK, o) ∧ Still c₀ d next w' := by
  have hok := (RefFMU3.stateSpace (F := F)).eff.okOrError
  simp only [List.mem_cons, List.not_mem_nil, or_false, not_or] at hX
  obtain ⟨w', o, e⟩ := FMI3.C64_stateSpace_partial h.reach (by rw [h.state]; exact hm) hX.1 (by rw [h.state]; exact hs) ha wf 0
  refine ⟨w', o, e, ⟨h.reach.call hok e, FMI3.step_inv hok (FMI3.kept model c₀) h.kept op _ e, ?_⟩, (hd _ e).trans h.data⟩
  obtain ⟨-, h1 | ⟨-, -, h1⟩ | ⟨-, h1, -⟩⟩ := FMI3.step_mode' hok _ e
  · cases h1.1
  · simp only at h1
    rw [h1]
    unfold FMI3.Spec.modeAfter
    split
    · exact absurd rfl hX.2
    · rw [h.typ hc, h.state, h.kept.inst.2.2, hn]
  · cases h1

theorem setTime_data {w : FMI3.World F (Data F)} {t : F} : (FMI3.step model 0 w (.setTime t)).All fun x => upd x.1.inst.mv.data = upd w.inst.mv.data := by
  intro x e
  simp only [FMI3.step, FMI3.World.run, FMI3.setTime, FMI3.begin, beginFunction] at e
  obtain ⟨⟨c, s, u⟩, e1, e⟩ := Outcome.bind_eq_ret.1 e
  cases e
  split at e1 <;> cases e1
  · rfl
  · simp only [Comp.setState, Comp.logError, logError]
    split <;> rfl

theorem Still.dims {mode : Mode} {w : FMI3.World F (Data F)} (h : Still c₀ d mode w) (hm : mode ≠ .terminated) : dims3 w.inst.mv.data :=
  (Dim.reachable h.reach).resolve_left (by rw [h.state]; exact hm)

theorem Still.record {hh : F} {w : FMI3.World F (Data F)} (h : Still c₀ d .continuousTimeMode w) :
    ∃ w', calls (apiStateSpace model 0 hh).call [.recordVariables] w = .ret (w', .OK, [elems 3 (upd d).y]) ∧ Still c₀ d .continuousTimeMode w' := by
  obtain ⟨-, -, r3⟩ := reads_three (h.dims (by decide)) (by rw [h.state]; decide)
  obtain ⟨w1, e1⟩ := r3 0 (0 : Int)
  have get : ∀ {w w' : FMI3.World F (Data F)} {t vr n v nv o}, Still c₀ d .continuousTimeMode w →
      FMI3.step model 0 w (.get t vr n v nv) = .ret (w', .OK, o) → Still c₀ d .continuousTimeMode w' := by
    intro w w' t vr n v nv o h e
    have hok := (RefFMU3.stateSpace (F := F)).eff.okOrError
    refine ⟨⟨h.reach.call hok e, FMI3.step_inv hok (FMI3.kept model c₀) h.kept _ _ e, ?_⟩,
      (FMI3.step_unstirred (by simp [FMI3.Interferes, FMI3.Op.fn]) (by simp [FMI3.Op.fn]) _ e).trans h.data⟩
    obtain ⟨-, h1 | ⟨-, -, h1⟩ | ⟨-, h1, -⟩⟩ := FMI3.step_mode' hok _ e
    · cases h1.1
    · exact h1.trans h.state
    · cases h1
  have h1 := get h e1
  have hv : block (upd w1.inst.mv.data) 10 = elems 3 (upd d).y := by
    rw [h1.data, ← (h1.dims (by decide)).2.2]
    show elems (upd d).r _ = _
    rw [← h1.data]
    rfl
  have hl : (elems 3 (upd d).y).length = 3 := by simp [elems]
  obtain ⟨w2, e2⟩ := reads_block_long (inBounds_of (h1.dims (by decide))) (by rw [h1.state]; decide) (by decide) (by decide) hv
    (buf := List.replicate R_MAX (Arith.lit 0)) (by simp [hl, R_MAX]) 0
  rw [hl] at e2
  refine ⟨w2, ?_, get h1 e2⟩
  have key : recordVariables model 0 w = .ret (w2, .OK, elems 3 (upd d).y) := by
    unfold recordVariables
    rw [e1, Outcome.ret_bind]
    simp only []
    rw [if_neg (by decide)]
    show (FMI3.step model 0 w1 (.get .float64 (some [10]) 1 (some (List.replicate R_MAX (Arith.lit 0))) 3) >>- _) = _
    rw [e2, Outcome.ret_bind]
    simp only []
    rw [if_neg (by decide), if_pos (by simp [hl])]
    congr 3
  simp only [calls, apiStateSpace, key, Outcome.ret_bind, if_true]

/-- What the loop needs from StateSpace; as the program is built it does not use the continuous states. -/
theorem drives (hc : c₀.ctx.typ = .modelExchange) {h stop : F} : Importer.Euler.Drives (Importer.Euler.api3 model [])
    (calls (apiStateSpace model 0 h).call [.recordVariables]) ⟨0, 0, h, stop, false⟩ (Still c₀ d .eventMode) (Still c₀ d .continuousTimeMode)
    (fun w => ∃ w' v, FMI3.step model 0 w .terminate = .ret (w', .OK, v)) (FMI3.Endless (model : Model F (Data F))) (fun vs => vs = [elems 3 (upd d).y]) := by
  have passive : ∀ {w : FMI3.World F (Data F)} {op : FMI3.Op F}, ¬ FMI3.Interferes op → op.fn ≠ .doStep →
      (FMI3.step model 0 w op).All fun x => upd x.1.inst.mv.data = upd w.inst.mv.data := fun h1 h2 => FMI3.step_unstirred h1 h2
  constructor
  case getStates => intro w l _ h; exact absurd h (by simp)
  case getNominals => intro w l _ h; exact absurd h (by simp)
  case getDerivatives => intro w l _ h; exact absurd h (by simp)
  case getIndicators => intro w l _ h; exact absurd h (by simp)
  case setStates => intro w l _ h; exact absurd h (by simp)
  case info => exact fun h ht => ⟨(h ht).1, rfl⟩
  case update =>
    intro w i h
    obtain ⟨w', o, e, k⟩ := h.step hc .eventMode (op := .updateDiscreteStates ⟨some i.newDiscreteStatesNeeded, some i.terminateSimulation, some i.nominalsChanged, some i.valuesChanged, some i.nextEventTimeDefined, some i.nextEventTime⟩)
      (by simp [FMI3.Op.fn]) (by decide) (passive (by simp [FMI3.Interferes, FMI3.Op.fn]) (by simp [FMI3.Op.fn])) (by simp [FMI3.Op.fn, FMI3.Spec.allowedIn, FMI3.Spec.anyMode])
      trivial (by simp [FMI3.WellFormed]) rfl
    obtain ⟨i', rfl, hi⟩ := FMI3.C50_no_second_iteration .stateSpace h.reach e
    have key : i' = FMI3.fillEventOut w'.inst.mv ⟨some i.newDiscreteStatesNeeded, some i.terminateSimulation, some i.nominalsChanged, some i.valuesChanged, some i.nextEventTimeDefined, some i.nextEventTime⟩ := by
      have hok := (RefFMU3.stateSpace (F := F)).eff.okOrError
      simp only [FMI3.step, FMI3.World.run, FMI3.updateDiscreteStates, FMI3.begin, beginFunction] at e
      obtain ⟨⟨c1, s1, o1⟩, e2, e1⟩ := Outcome.bind_eq_ret.1 e
      cases e1
      split at e2
      · simp only [model, call] at e2
        obtain ⟨⟨c2, s2, u⟩, e3, e2⟩ := Outcome.bind_eq_ret.1 e2
        obtain ⟨mv, e4, rfl⟩ := lift_eq_ret.1 e3
        rcases hok _ _ _ _ _ (.event (m := model) rfl e4) with rfl | rfl
        · cases e2; rfl
        · cases e2
      · cases e2
    subst key
    refine ⟨w', w'.inst.mv.eventInfo, by simp only [Importer.Euler.api3, e, Outcome.ret_bind]; rfl, by simpa [FMI3.fillEventOut, MV.eventInfo] using hi, ?_, ?_, fun _ => k⟩
    · intro ht
      exact (k.reach.mv (RefFMU3.stateSpace (F := F)).eff.okOrError ht.inv ⟨rfl, rfl⟩).inst.symm
    · obtain ⟨w'', v, e, -⟩ := k.step hc .terminated (op := .terminate) (by simp [FMI3.Op.fn]) (by decide)
        (passive (by simp [FMI3.Interferes, FMI3.Op.fn]) (by simp [FMI3.Op.fn])) (by simp [FMI3.Op.fn, FMI3.Spec.allowedIn]) trivial trivial rfl
      exact ⟨w'', v, e⟩
  case enterCT =>
    intro w h
    obtain ⟨w', o, e, k⟩ := h.step hc .continuousTimeMode (op := .enterContinuousTimeMode) (by simp [FMI3.Op.fn]) (by decide)
      (passive (by simp [FMI3.Interferes, FMI3.Op.fn]) (by simp [FMI3.Op.fn])) (by simp [FMI3.Op.fn, FMI3.Spec.allowedIn]) trivial trivial rfl
    exact ⟨w', by simp [Importer.Euler.api3, e], k⟩
  case enterEM =>
    intro w h
    obtain ⟨w', o, e, k⟩ := h.step hc .eventMode (op := .enterEventMode) (by simp [FMI3.Op.fn]) (by decide)
      (passive (by simp [FMI3.Interferes, FMI3.Op.fn]) (by simp [FMI3.Op.fn])) (by simp [FMI3.Op.fn, FMI3.Spec.allowedIn]) trivial trivial rfl
    exact ⟨w', by simp [Importer.Euler.api3, e], k⟩
  case setTime =>
    intro w i h'
    obtain ⟨w', o, e, k⟩ := h'.step hc .continuousTimeMode (op := .setTime (timeAfter h i)) (by simp [FMI3.Op.fn]) (by decide) setTime_data
      (by simp [FMI3.Op.fn, FMI3.Spec.allowedIn]) trivial trivial rfl
    exact ⟨w', by simp [Importer.Euler.api3, e], k⟩
  case completed =>
    intro w a b h
    obtain ⟨w', o, e, k⟩ := h.step hc .continuousTimeMode (op := .completedIntegratorStep (some a) (some b)) (by simp [FMI3.Op.fn]) (by decide)
      (passive (by simp [FMI3.Interferes, FMI3.Op.fn]) (by simp [FMI3.Op.fn])) (by simp [FMI3.Op.fn, FMI3.Spec.allowedIn])
      (by simp [FMI3.ArgsStateSpace, FMI3.Args]) trivial rfl
    have e' := e
    simp only [FMI3.step, FMI3.World.run, FMI3.completedIntegratorStep, FMI3.begin, beginFunction] at e'
    obtain ⟨⟨c1, s1, o1⟩, e2, e1⟩ := Outcome.bind_eq_ret.1 e'
    cases e1
    split at e2 <;> cases e2
    exact ⟨_, by simp [Importer.Euler.api3, e], k⟩
  case record =>
    intro w hw
    obtain ⟨w', e, k⟩ := hw.record (hh := h)
    exact ⟨w', _, e, k, rfl⟩
  case stop =>
    intro w h
    obtain ⟨w', o, e, k⟩ := h.step hc .terminated (op := .terminate) (by simp [FMI3.Op.fn]) (by decide)
      (passive (by simp [FMI3.Interferes, FMI3.Op.fn]) (by simp [FMI3.Op.fn])) (by simp [FMI3.Op.fn, FMI3.Spec.allowedIn]) trivial trivial rfl
    exact ⟨w', o, e⟩

end
end StateSpace
end Verif
