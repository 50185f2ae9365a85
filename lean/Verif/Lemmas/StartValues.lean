import Verif.Spec.StartValues
import Verif.Lemmas.StateSpace
import Verif.Lemmas.Held
import Verif.Props.C28

/-! # Lemmas for C69: the start values -/

set_option linter.unusedSectionVars false

namespace Verif
variable {F D : Type} [Arith F] [HasInf F] {m : Model F D} {upd : D → D} {R : List (VType × Nat)}

theorem Clocks.reads : (Clocks.model (F := F)).ReadsUpTo id := by
  have hu : ∀ d : Clocks.Data F, id (id d) = id d := fun _ => rfl
  apply Model.ReadsUpTo.intro
  case get =>
    intro t ctx mv vr p n i
    cases t <;> simp only [Clocks.model, Clocks.getFloat64, Clocks.getInt32] <;> mkeep hu
  case od => intro eu h; cases h
  all_goals
    intros
    simp only [Clocks.model]
    mkeep hu

/-- After `setStartValues` the variables have the values `starts`, and the values depend on the data up to `upd` only. -/
structure Lens.Starts (l : Lens m R) (upd : D → D) (starts : List (Start F)) : Prop where
  reads : m.ReadsUpTo upd
  val : ∀ t r τ d d', upd d = upd d' → l.val t r τ d = l.val t r τ d'
  mem : ∀ s ∈ starts, (s.type, s.vr) ∈ R
  start : ∀ s ∈ starts, ∀ ctx mv τ, l.val s.type s.vr τ (m.setStartValues ctx mv).data = s.value

/-- The data are those that `setStartValues` leaves, up to `upd`. -/
def Model.Started (m : Model F D) (upd : D → D) (P : MV F D → Prop) (d : D) : Prop :=
  ∃ ctx mv, P mv ∧ upd d = upd (m.setStartValues ctx mv).data

theorem createModelInstance_data {ver3 logger iu name token resource loggingOn mem typ c l}
    (h : createModelInstance m ver3 logger iu name token resource loggingOn mem typ = (some c, l)) :
    ∃ ctx mv, mv.data = m.data0 ∧ c.mv.data = (m.setStartValues ctx mv).data :=
  ⟨c.ctx, {
    newDiscreteStatesNeeded := false, terminateSimulation := false,
    nominalsChanged := false, valuesChanged := false, nextEventTimeDefined := false,
    nextEventTime := Arith.lit 0, clocksTicked := false, isDirtyValues := false,
    data := m.data0, trace := [] }, rfl, by rw [createModelInstance_mv h]⟩

namespace FMI2

theorem Calls.leaves (he : m.Eff) (hr : m.ReadsUpTo upd) {w₀ w : World F D} (h : Calls m (fun _ op => Leaves op) w₀ w) :
    upd w.inst.mv.data = upd w₀.inst.mv.data := by
  induction h with
  | none => rfl
  | @call w w' fuel op s o _ hl e ih =>
    have hp : ¬ notPassive m op.fn := by
      rintro (h | ⟨h, -⟩)
      · exact hl (List.mem_append_left [Fn.newDiscreteStates] h)
      · exact hl (by simp [h])
    exact ((step_passive he hr hp) _ e).data.trans ih

theorem reset_data {w w' : World F D} {fuel o} (e : step m fuel w .reset = .ret (w', .OK, o)) :
    ∃ ctx, w'.inst.mv.data = (m.setStartValues ctx w.inst.mv).data := by
  simp only [step] at e
  obtain ⟨c, b, e1, rfl⟩ := run_ret e
  have e2 := begin_ret e1
  cases e2
  exact ⟨_, rfl⟩

theorem Untouched.started (he : m.Eff) (hr : m.ReadsUpTo upd) {w : World F D} (h : Untouched m w) :
    m.Started upd (fun mv => mv.data = m.data0) w.inst.mv.data := by
  obtain ⟨name, t, guid, resource, functions, loggingOn, mem, c, l, w₀, hc, hw, h⟩ := h
  unfold instantiate at hc
  split at hc
  iterate 2 cases hc
  obtain ⟨ctx, mv, h1, h2⟩ := createModelInstance_data hc
  exact ⟨ctx, mv, h1, (h.leaves he hr).trans (by rw [hw.1, h2])⟩

theorem Renewed.started (he : m.Eff) (hr : m.ReadsUpTo upd) {w : World F D} (h : Renewed m w) :
    m.Started upd (fun _ => True) w.inst.mv.data := by
  obtain ⟨t, v, w₀, fuel, o, -, e, h⟩ := h
  obtain ⟨ctx, e⟩ := reset_data e
  exact ⟨ctx, _, trivial, (h.leaves he hr).trans (by rw [e])⟩

end FMI2

namespace FMI3

theorem Calls.leaves (he : m.Eff) (hr : m.ReadsUpTo upd) {w₀ w : World F D} (h : Calls m (fun _ op => Leaves op) w₀ w) :
    upd w.inst.mv.data = upd w₀.inst.mv.data := by
  induction h with
  | none => rfl
  | @call w w' fuel op s o _ hl e ih =>
    have hp : ¬ notPassive m op.fn := by
      rintro (⟨t, h⟩ | h | ⟨h, -⟩)
      · exact hl.1 t h
      · exact hl.2 (List.mem_append_left [Fn.updateDiscreteStates] h)
      · exact hl.2 (by simp [h])
    exact ((step_passive he hr hp) _ e).data.trans ih

theorem reset_data {w w' : World F D} {fuel o} (e : step m fuel w .reset = .ret (w', .OK, o)) :
    ∃ ctx, w'.inst.mv.data = (m.setStartValues ctx w.inst.mv).data := by
  simp only [step] at e
  obtain ⟨c, b, e1, rfl⟩ := run_ret e
  have e2 := begin_ret e1
  cases e2
  exact ⟨_, rfl⟩

theorem Untouched.started (he : m.Eff) (hr : m.ReadsUpTo upd) {w : World F D} (h : Untouched m w) :
    m.Started upd (fun mv => mv.data = m.data0) w.inst.mv.data := by
  obtain ⟨t, c, w₀, hc, hw, h⟩ := h
  obtain ⟨_, _, _, _, _, _, _, c₀, _, _, _, _, _, _, hc', rfl⟩ := hc.created
  obtain ⟨ctx, mv, h1, h2⟩ := createModelInstance_data hc'
  exact ⟨ctx, mv, h1, (h.leaves he hr).trans (by rw [hw.1]; exact congrArg upd h2)⟩

theorem Renewed.started (he : m.Eff) (hr : m.ReadsUpTo upd) {w : World F D} (h : Renewed m w) :
    m.Started upd (fun _ => True) w.inst.mv.data := by
  obtain ⟨t, v, w₀, fuel, o, -, e, h⟩ := h
  obtain ⟨ctx, e⟩ := reset_data e
  exact ⟨ctx, _, trivial, (h.leaves he hr).trans (by rw [e])⟩

end FMI3

/-- Prove `Lens.Starts`: go through the start values. -/
macro "lens_start" : tactic => `(tactic| (
  intro s h ctx mv τ
  simp only [BouncingBall.starts, Dahlquist.starts, VanDerPol.starts, Stair.starts, Clocks.starts, Roberts.starts, Feedthrough.starts2,
    Feedthrough.starts3, List.mem_cons, List.not_mem_nil, or_false] at h
  repeat' (refine Or.elim h ?_ ?_ <;> clear h <;> intro h)
  all_goals (subst h; rfl)))

theorem Lens.Starts.intro {l : Lens m R} {starts : List (Start F)} (reads : m.ReadsUpTo l.upd)
    (mem : ∀ s ∈ starts, (s.type, s.vr) ∈ R)
    (start : ∀ s ∈ starts, ∀ ctx mv τ, l.val s.type s.vr τ (m.setStartValues ctx mv).data = s.value) : l.Starts l.upd starts :=
  ⟨reads, fun t r τ d d' h => by rw [← l.upd_val t r τ d, h, l.upd_val], mem, start⟩

theorem Roberts.lens_upd : (Lens.roberts (F := F)).upd = Roberts.ode.calc' := by
  funext d
  show _ = Roberts.calcData d
  cases h : d.dae <;> simp [Lens.roberts, Lens.robertsY3, Roberts.calcData, h]

theorem FMI2.Declares.lens {starts : List (Start F)} (h : FMI2.Declares m starts) :
    m.Eff ∧ ∃ (R : List (VType × Nat)) (l : Lens m R), l.Starts l.upd starts ∧ ∀ s ∈ starts, FMI2.hasType s.type := by
  cases h with
  | bouncingBall => exact ⟨RefFMU2.bouncingBall.eff, _, .bouncingBall,
      .intro BouncingBall.reads (by simp [BouncingBall.starts, Start.float64]) (by lens_start),
      by simp [BouncingBall.starts, Start.float64, FMI2.hasType]⟩
  | dahlquist => exact ⟨RefFMU2.dahlquist.eff, _, .dahlquist,
      .intro Dahlquist.reads (by simp [Dahlquist.starts, Start.float64]) (by lens_start),
      by simp [Dahlquist.starts, Start.float64, FMI2.hasType]⟩
  | feedthrough => exact ⟨RefFMU2.feedthrough.eff, _, .feedthrough2,
      .intro (Feedthrough.reads false) (by simp [Feedthrough.starts2, Start.float64]) (by lens_start),
      by simp [Feedthrough.starts2, Start.float64, FMI2.hasType]⟩
  | stair => exact ⟨RefFMU2.stair.eff, _, .stair, .intro Stair.reads (by simp [Stair.starts]) (by lens_start),
      by simp [Stair.starts, FMI2.hasType]⟩
  | vanDerPol => exact ⟨RefFMU2.vanDerPol.eff, _, .vanDerPol,
      .intro VanDerPol.reads (by simp [VanDerPol.starts, Start.float64]) (by lens_start),
      by simp [VanDerPol.starts, Start.float64, FMI2.hasType]⟩

theorem FMI3.Declares.lens {starts : List (Start F)} (h : FMI3.Declares m starts) :
    m.Eff ∧ ∃ (R : List (VType × Nat)) (l : Lens m R), l.Starts l.upd starts := by
  cases h with
  | bouncingBall => exact ⟨RefFMU3.bouncingBall.eff, _, .bouncingBall,
      .intro BouncingBall.reads (by simp [BouncingBall.starts, Start.float64]) (by lens_start)⟩
  | clocks => exact ⟨RefFMU3.clocks.eff, _, .clocks, .intro Clocks.reads (by simp [Clocks.starts]) (by lens_start)⟩
  | dahlquist => exact ⟨RefFMU3.dahlquist.eff, _, .dahlquist,
      .intro Dahlquist.reads (by simp [Dahlquist.starts, Start.float64]) (by lens_start)⟩
  | feedthrough => exact ⟨RefFMU3.feedthrough.eff, _, .feedthrough3,
      .intro (Feedthrough.reads true) (by simp [Feedthrough.starts3, Start.float64]) (by lens_start)⟩
  | roberts => exact ⟨RefFMU3.roberts.eff, _, .roberts,
      .intro (by rw [Roberts.lens_upd]; exact Roberts.reads) (by simp [Roberts.starts, Start.float64]) (by lens_start)⟩
  | stair => exact ⟨RefFMU3.stair.eff, _, .stair, .intro Stair.reads (by simp [Stair.starts]) (by lens_start)⟩
  | vanDerPol => exact ⟨RefFMU3.vanDerPol.eff, _, .vanDerPol,
      .intro VanDerPol.reads (by simp [VanDerPol.starts, Start.float64]) (by lens_start)⟩

theorem KeepR.calc {β : Type} {mv : MV F (StateSpace.Data F)} {k : MV F (StateSpace.Data F) → MRes F (StateSpace.Data F) β}
    (h : KeepR StateSpace.upd mv.data (k (StateSpace.calcValues mv))) :
    KeepR StateSpace.upd mv.data (StateSpace.calculateValues mv >>- k) := by
  unfold StateSpace.calculateValues StateSpace.guarded
  split
  · exact h
  · exact KeepR.ub

/-- StateSpace only computes its outputs and derivatives when it is read. -/
theorem StateSpace.reads_upTo : (StateSpace.model (F := F)).ReadsUpTo StateSpace.upd := by
  have hu : ∀ mv : MV F (Data F), upd (calcValues mv).data = upd mv.data := fun mv => upd_upd mv.data
  apply Model.ReadsUpTo.intro
  case get =>
    intro t ctx mv vr p n i
    cases t <;> simp only [model, getFloat64, getUInt64, putBlock]
    case float64 =>
      refine KeepR.notNull rfl (KeepR.calc ?_)
      mkeep hu
    all_goals mkeep hu
  case hcalc => intro ctx mv; exact KeepR.calc (KeepR.ret (hu mv))
  case deriv =>
    intro ctx mv p n
    refine KeepR.notNull rfl ?_
    unfold checkNx
    split
    · exact KeepR.fail rfl _ _
    · refine KeepR.calc ?_
      mkeep hu
  case od => intro eu h; cases h
  all_goals
    intros
    simp only [model, checkNx, guarded]
    mkeep hu

end Verif
