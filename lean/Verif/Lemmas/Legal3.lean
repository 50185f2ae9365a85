import Verif.Lemmas.Legal
import Verif.Lemmas.Modes3

/-! # Which FMI 3.0 calls succeed -/

set_option linter.unusedSectionVars false

namespace Verif
namespace FMI3
variable {F D : Type} [Arith F] {m : Model F D} {p : Profile F D}

theorem Describes.scalar (h : Describes m p) : ScalarFMU3 m := by
  cases h
  · exact .bouncingBall
  · exact .clocks
  · exact .dahlquist
  · exact .feedthrough
  · exact .resource _
  · exact .roberts
  · exact .stair
  · exact .vanDerPol

theorem Describes.ref (h : Describes m p) : RefFMU3 m := h.scalar.ref

theorem Describes.lawful (h : Describes m p) : Lawful m p := by
  cases h
  · exact .bouncingBall
  · exact .clocks
  · exact .dahlquist
  · exact .feedthrough
  · exact .resource
  · exact .roberts
  · exact .stair
  · exact .vanDerPol

theorem begin_okIff {β : Type} {fn : Fn} {name : String} {c : Comp F D} {stop : β} {k : Comp F D → Res F D β} {P : Prop}
    (h : OkIff (k c) P) : OkIff (begin fn.mask name c stop k) (c.ctx.state ∈ Spec.allowedIn fn ∧ P) := by
  unfold begin beginFunction
  split
  · next ha => exact h.iff ⟨fun h => ⟨(allowed_fn _ _).1 ha, h⟩, fun h => h.2⟩
  · next ha => exact .no (by simp) fun h => ha ((allowed_fn _ _).2 h.1)

theorem World.run_okIff {β : Type} {w : World F D} {r : Res F D β} {out : β → Out F} {P : Prop} (h : OkIff r P) :
    (w.run r out).All fun x => (x.2.1 = .OK ↔ P) :=
  Outcome.All.bind h fun _ h => Outcome.all_ret.2 h

theorem World.runSlot_okIff {w : World F D} {i : Nat} {r : Res F D (Option (Comp F D))} {P : Prop} (h : OkIff r P) :
    (w.runSlot i r).All fun x => (x.2.1 = .OK ↔ P) :=
  Outcome.All.bind h fun _ h => Outcome.all_ret.2 h

theorem World.runBuf_okIff {w : World F D} {i : Nat} {r : Res F D (Option (Buffer F D))} {P : Prop} (h : OkIff r P) :
    (w.runBuf i r).All fun x => (x.2.1 = .OK ↔ P) :=
  Outcome.All.bind h fun _ h => Outcome.all_ret.2 h

section
variable (hl : Lawful m p) (hm : OkOrError m)
include hl hm

theorem getVars_okIff {t : VType} {vr : Ptr Nat} {n nv : Nat} {v : Ptr (t.Val F)} {c : Comp F D} (hn : p.needs c.ctx) :
    OkIff (getVars m t c vr n v nv) (c.ctx.state ∈ Spec.allowedIn (.get t) ∧
      (n = 0 ∨ (p.gets t vr n ∧ v ≠ none ∧ if t = .binary then n ≤ nv else n = nv))) := by
  unfold getVars
  refine begin_okIff (fn := .get t) ?_
  split
  · next h => exact .ok (.inl h)
  · next h =>
    have hk : OkIff (refresh m .OK c v fun c st =>
        getLoop m t vr nv n 0 c st v 0 >>- fun (c, st, (values, index)) =>
        if st = .Discard ∨ st = .Error ∨ st = .Fatal then .ret (c, st, values)
        else if t ≠ .binary ∧ index ≠ nv then fail c "Expected nValues = %zu but was %zu." values
        else .ret (c, st, values)) (p.gets t vr n ∧ v ≠ none ∧ if t = .binary then n ≤ nv else n = nv) := by
      refine refresh_okIff hl hm hn fun mv => Outcome.All.bind (getLoop_ok hl hm t vr nv n 0 _ v 0) ?_
      rintro ⟨c', s, v', k⟩ ⟨h1, h2, h3⟩
      simp only [Nat.zero_add, h, false_or] at h1 h2 h3
      rcases h3 with rfl | rfl
      · have h2 := h2 rfl
        obtain ⟨g1, g2, g3⟩ := h1.1 rfl
        subst h2
        simp only [reduceCtorEq, or_self, if_false]
        split
        · next hb =>
          refine Outcome.all_ret.2 ?_
          simp only [reduceCtorEq, false_iff]
          rintro ⟨-, -, h'⟩
          rw [if_neg hb.1] at h'
          exact hb.2 h'
        · next hb =>
          refine Outcome.all_ret.2 ?_
          simp only [true_iff]
          refine ⟨g3, g1, ?_⟩
          split
          · exact g2
          · next ht => exact Classical.not_not.1 fun h' => hb ⟨ht, h'⟩
      · simp only [reduceCtorEq, or_true, or_false, if_true, Outcome.all_ret, false_iff] at h1 ⊢
        rintro ⟨g1, g2, g3⟩
        refine h1 ⟨g2, ?_, g1⟩
        split at g3 <;> omega
    refine OkIff.iff ?_ (⟨.inr, fun h' => h'.resolve_left h⟩ : _ ↔ _)
    refine .nonNull (fun hP e => ?_) fun _ => ?_
    · obtain ⟨r, ⟨l, e', -⟩, -⟩ := hP.1 0 (by omega)
      simp [e] at e'
    · simp only
      split
      · exact .nonNull (fun hP => hP.2.1) fun _ => hk
      · exact hk

theorem setVars_okIff {t : VType} {vr : Ptr Nat} {n nv : Nat} {v : Ptr (t.Val F)} {c : Comp F D} :
    OkIff (setVars m t c vr n v nv) (c.ctx.state ∈ Spec.allowedIn (.set t) ∧
      (n = 0 ∨ (p.sets c.ctx.typ c.ctx.state t vr n v ∧ n = nv))) := by
  unfold setVars
  refine begin_okIff (fn := .set t) ?_
  split
  · next h => exact .ok (.inl h)
  · next h =>
    refine OkIff.iff ?_ (⟨.inr, fun h' => h'.resolve_left h⟩ : _ ↔ _)
    refine .nonNull (fun hP e => ?_) fun _ => ?_
    · obtain ⟨r, x, ⟨l, e', -⟩, -⟩ := hP.1 0 (by omega)
      simp [e] at e'
    · refine Outcome.All.bind (setLoop_ok hl hm t vr v nv n 0 c 0) ?_
      rintro ⟨c', s, k⟩ ⟨h1, h2, h3⟩
      simp only [Nat.zero_add, h, false_or] at h1 h2 h3
      rcases h3 with rfl | rfl
      · have h2 := h2 rfl
        obtain ⟨g1, g2⟩ := h1.1 rfl
        subst h2
        simp only [reduceCtorEq, or_self, if_false]
        split
        · next hb => exact Outcome.all_ret.2 (by simp [hb])
        · next hb =>
          refine Outcome.all_ret.2 ?_
          simp only [true_iff]
          exact ⟨g2, Classical.not_not.1 hb⟩
      · simp only [reduceCtorEq, or_true, or_false, if_true, Outcome.all_ret, false_iff] at h1 ⊢
        rintro ⟨g1, g2⟩
        exact h1 ⟨by omega, g1⟩

theorem exit_okIff {c : Comp F D} (hn : p.needs c.ctx) :
    OkIff (exitInitializationMode m c) (c.ctx.state ∈ Spec.allowedIn .exitInitializationMode) := by
  unfold exitInitializationMode
  refine (begin_okIff (fn := .exitInitializationMode) (P := True) (refresh_okIff hl hm hn fun mv => ?_)).iff (by simp)
  refine .call ?_
  intro x e
  exact .inl ⟨configurate_ok hl hm _ x e, .ok trivial⟩

theorem event_okIff {c : Comp F D} {out : EventOut F} (ho : ¬p.over c.mv.data) :
    OkIff (updateDiscreteStates m c out) (c.ctx.state ∈ Spec.allowedIn .updateDiscreteStates) := by
  unfold updateDiscreteStates
  refine (begin_okIff (fn := .updateDiscreteStates) (P := True) ?_).iff (by simp)
  cases he : m.eventUpdate with
  | none => exact .ok trivial
  | some eu => exact .call (lift_all fun x e => .inl ⟨hl.event eu he c.ctx c.mv ho x e, .ok trivial⟩)

end

variable [HasInf F]

/-- All calls except DoStep. -/
theorem step_okIff (hl : Lawful m p) (hm : OkOrError m) {fuel : Nat} {w : World F D} {op : Op F} (hn : p.needs w.inst.ctx)
    (hd : op.fn ≠ .doStep) (ho : op.fn = .updateDiscreteStates → ¬p.over w.inst.mv.data) :
    (step m fuel w op).All fun x => (x.2.1 = .OK ↔ w.inst.ctx.state ∈ Spec.allowedIn op.fn ∧ Args m p w op) := by
  have simple : ∀ {β : Type} {c : Comp F D} {b : β}, OkIff (.ret (c, .OK, b)) True := fun {_ _ _} => .ok trivial
  cases op <;> dsimp only [step, Op.fn, Args]
  case setDebugLogging on n cats =>
    refine World.run_okIff ?_
    refine begin_okIff (fn := .setDebugLogging) ?_
    exact setDebugLogging_ok _ _ _ _
  case enterInitializationMode =>
    refine World.run_okIff ?_
    refine begin_okIff (fn := .enterInitializationMode) ?_
    exact simple
  case enterEventMode =>
    refine World.run_okIff ?_
    refine begin_okIff (fn := .enterEventMode) ?_
    exact simple
  case terminate =>
    refine World.run_okIff ?_
    refine begin_okIff (fn := .terminate) ?_
    exact simple
  case enterConfigurationMode =>
    refine World.run_okIff ?_
    refine begin_okIff (fn := .enterConfigurationMode) ?_
    exact simple
  case enterContinuousTimeMode =>
    refine World.run_okIff ?_
    refine begin_okIff (fn := .enterContinuousTimeMode) ?_
    exact simple
  case setTime =>
    refine World.run_okIff ?_
    refine begin_okIff (fn := .setTime) ?_
    exact simple
  case enterStepMode =>
    refine World.run_okIff ?_
    refine begin_okIff (fn := .enterStepMode) ?_
    exact simple
  case exitInitializationMode => exact World.run_okIff ((exit_okIff hl hm hn).iff (by simp))
  case reset =>
    refine World.run_okIff ?_
    refine begin_okIff (fn := .reset) (P := True) (.callLast ?_)
    simp [Verif.reset]
  case get t vr n v nv => exact World.run_okIff (getVars_okIff hl hm hn)
  case set t vr n v nv => exact World.run_okIff (setVars_okIff hl hm)
  case getClock vr n v =>
    refine World.run_okIff ?_
    refine begin_okIff (fn := .getClock) ?_
    exact (getClockLoop_ok hl hm vr n 0 w.inst v).iff (by simp)
  case setClock vr n v =>
    refine World.run_okIff ?_
    refine begin_okIff (fn := .setClock) ?_
    exact (setClockLoop_ok hl hm vr v n 0 w.inst).iff (by simp)
  case getFMUState =>
    refine World.runSlot_okIff ?_
    refine begin_okIff (fn := .getFMUState) ?_
    exact simple
  case setFMUState i =>
    refine World.run_okIff ?_
    refine begin_okIff (fn := .setFMUState) (.callLast ?_)
    split
    · next e => exact Outcome.all_ret.2 (.inr ⟨rfl, fun h => h e⟩)
    · next e => exact Outcome.all_ret.2 (.inl ⟨rfl, by simp [e]⟩)
  case freeFMUState =>
    refine World.runSlot_okIff ?_
    refine begin_okIff (fn := .freeFMUState) ?_
    exact simple
  case serializedFMUStateSize n =>
    refine World.run_okIff ?_
    refine begin_okIff (fn := .serializedFMUStateSize) (P := True) ?_
    split
    · exact Outcome.all_ub.2 trivial
    · exact simple
  case serializeFMUState i b n =>
    refine World.runBuf_okIff ?_
    refine begin_okIff (fn := .serializeFMUState) ?_
    split
    · next e => exact .no (by simp) fun h => h.1 e
    · next s e =>
      split
      · next hs => exact .no (by simp) fun h => hs h.2
      · next hs => exact .bind fun _ _ => .ok ⟨by simp [e], by omega⟩
  case deserializeFMUState b n i =>
    refine World.runSlot_okIff ?_
    refine begin_okIff (fn := .deserializeFMUState) ?_
    split
    · next hs => exact .no (by simp) fun h => hs h
    · next hs => exact .bind fun _ _ => .ok (show n = m.sizeOf by omega)
  case getDirectionalDerivative u nu k nk s v =>
    refine World.run_okIff ?_
    refine begin_okIff (fn := .getDirectionalDerivative) ?_
    exact derivOuter_ok hl hm s nk nu 0 w.inst v
  case getAdjointDerivative u nu k nk s v =>
    refine World.run_okIff ?_
    refine begin_okIff (fn := .getAdjointDerivative) ?_
    exact (derivOuter_ok hl hm s nu nk 0 w.inst v).iff or_left_comm
  case exitConfigurationMode =>
    refine World.run_okIff ?_
    refine begin_okIff (fn := .exitConfigurationMode) (P := True) ?_
    simp only
    split
    · exact .callLast fun x e => .inl ⟨configurate_ok hl hm _ x e, trivial⟩
    · exact simple
  case getIntervalDecimal vr n i q =>
    refine World.run_okIff ?_
    refine begin_okIff (fn := .getIntervalDecimal) ?_
    exact (getIntervalLoop_ok hl hm vr n 0 w.inst (i, q)).iff (by simp)
  case updateDiscreteStates => exact World.run_okIff ((event_okIff hl hm (ho rfl)).iff (by simp))
  case completedIntegratorStep a b =>
    refine World.run_okIff ?_
    refine begin_okIff (fn := .completedIntegratorStep) ?_
    exact .nonNull (fun h => h.1) fun h1 => .nonNull (fun h => h.2) fun h2 => .ok ⟨h1, h2⟩
  case setContinuousStates =>
    refine World.run_okIff ?_
    refine begin_okIff (fn := .setContinuousStates) ?_
    exact vec_okIff hl hm (hl.setStates _ _ _ _) fun _ _ _ e => .setStates e
  case getDerivatives =>
    refine World.run_okIff ?_
    refine begin_okIff (fn := .getDerivatives) ?_
    exact vec_okIff hl hm (hl.deriv _ _ _ _) fun _ _ _ e => .deriv e
  case getEventIndicators =>
    refine World.run_okIff ?_
    refine begin_okIff (fn := .getEventIndicators) ?_
    exact vec_okIff hl hm (hl.indicators _ _ _ _) fun _ _ _ e => .indicators e
  case getContinuousStates =>
    refine World.run_okIff ?_
    refine begin_okIff (fn := .getContinuousStates) ?_
    exact vec_okIff hl hm (hl.getStates _ _ _ _) fun _ _ _ e => .getStates e
  case getNominals =>
    refine World.run_okIff ?_
    refine begin_okIff (fn := .getNominals) ?_
    exact vec_okIff hl hm (hl.nominals _ _ _ _) fun _ _ _ e => .nominals e
  case getNumberOfEventIndicators =>
    refine World.run_okIff ?_
    refine begin_okIff (fn := .getNumberOfEventIndicators) (P := True) ?_
    split
    · exact Outcome.all_ub.2 trivial
    · exact simple
  case getNumberOfContinuousStates =>
    refine World.run_okIff ?_
    refine begin_okIff (fn := .getNumberOfContinuousStates) (P := True) ?_
    split
    · exact Outcome.all_ub.2 trivial
    · exact simple
  case getOutputDerivatives vr n o v =>
    refine World.run_okIff ?_
    refine begin_okIff (fn := .getOutputDerivatives) ?_
    cases hf : m.getOutputDerivative with
    | none =>
      have := hl.noOutDeriv.1 hf
      exact .no (by simp) (by simp [this])
    | some f =>
      cases hp : p.outputDerivatives with
      | none => have := hl.noOutDeriv.2 hp; simp [hf] at this
      | some l => exact (outputDerivLoop_ok hl hm hf hp vr o n 0 w.inst v).iff (by simp)
  case doStep => exact absurd rfl hd
  case activateModelPartition k t =>
    refine World.run_okIff ?_
    refine begin_okIff (fn := .activateModelPartition) ?_
    exact vec_okIff hl hm (hl.partition _ _ _ _) fun _ _ _ e => .partition e
  case notImplemented => exact World.run_okIff (.no (by simp) fun h => h.2)

end FMI3
end Verif
