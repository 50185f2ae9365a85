import Verif.Lemmas.Legal
import Verif.Lemmas.Modes2

/-! # Which FMI 2.0 calls succeed -/

set_option linter.unusedSectionVars false

namespace Verif
namespace FMI2
variable {F D : Type} [Arith F] {m : Model F D} {p : Profile F D}

theorem Describes.ref (h : Describes m p) : RefFMU2 m := by
  cases h
  · exact .bouncingBall
  · exact .dahlquist
  · exact .feedthrough
  · exact .resource _
  · exact .stair
  · exact .vanDerPol

theorem Describes.lawful (h : Describes m p) : Lawful m p := by
  cases h
  · exact .bouncingBall
  · exact .dahlquist
  · exact .feedthrough
  · exact .resource
  · exact .stair
  · exact .vanDerPol

theorem begin_okIff {β : Type} {fn : Fn} {name : String} {c : Comp F D} {stop : β} {k : Comp F D → Res F D β} {P : Prop}
    (h : OkIff (k c) P) : OkIff (begin fn.mask name c stop k) (c.ctx.state ∈ Spec.allowedIn fn ∧ P) := by
  unfold begin beginFunction
  split
  · next ha => exact h.iff ⟨fun h => ⟨(allowed_fn _ _).1 ha, h⟩, fun h => h.2⟩
  · next ha => exact .no (by simp) fun h => ha ((allowed_fn _ _).2 h.1)

theorem World.run_okIff {β : Type} {w : World F D} {r : Res F D β} {out : β → Out F} {P : Prop} (h : OkIff r P) :
    (w.run r out).All fun x => (x.2.1 = .OK ↔ P) :=
  Outcome.All.bind h fun _ h => Outcome.all_ret.2 h

theorem World.runSlot_okIff {w : World F D} {i : Nat} {r : Res F D (Option (Comp F D))} {P : Prop} (h : OkIff r P) :
    (w.runSlot i r).All fun x => (x.2.1 = .OK ↔ P) :=
  Outcome.All.bind h fun _ h => Outcome.all_ret.2 h

theorem World.runBuf_okIff {w : World F D} {i : Nat} {r : Res F D (Option (Buffer F D))} {P : Prop} (h : OkIff r P) :
    (w.runBuf i r).All fun x => (x.2.1 = .OK ↔ P) :=
  Outcome.All.bind h fun _ h => Outcome.all_ret.2 h

section
variable (hl : Lawful m p) (hm : OkOrError m)
include hl hm

theorem getVariables_okIff {t : VType} {vr : Ptr Nat} {n : Nat} {v : Ptr (t.Val F)} {c : Comp F D} (hn : p.needs c.ctx) :
    OkIff (getVariables m t vr n v c) (p.gets t vr n ∧ (n ≠ 0 → v ≠ none)) := by
  unfold getVariables
  split
  · next h => subst h; exact .ok ⟨fun _ h => by omega, by simp⟩
  · next h =>
    refine .nonNull (fun hP e => ?_) fun _ => .nonNull (fun hP => hP.2 h) fun hv => refresh_okIff hl hm hn fun mv => ?_
    · obtain ⟨r, ⟨l, e', -⟩, -⟩ := hP.1 0 (by omega)
      simp [e] at e'
    · refine Outcome.All.bind (getLoop_ok hl hm t vr n n 0 _ v 0) ?_
      rintro ⟨c', s, v', k⟩ ⟨h1, -, -⟩
      refine Outcome.all_ret.2 (h1.trans ?_)
      simp only [Nat.zero_add, h, false_or, Nat.le_refl, true_and, Profile.gets]
      exact ⟨fun ⟨a, b⟩ => ⟨b, fun _ => a⟩, fun ⟨a, b⟩ => ⟨b h, a⟩⟩

theorem setVariables_okIff {t : VType} {vr : Ptr Nat} {n : Nat} {v : Ptr (t.Val F)} {c : Comp F D} :
    OkIff (setVariables m t vr n v c) (p.sets c.ctx.typ c.ctx.state t vr n v) := by
  unfold setVariables
  split
  · next h => subst h; exact .ok fun _ h => by omega
  · next h =>
    refine .nonNull (fun hP e => ?_) fun _ => .nonNull (fun hP e => ?_) fun hv => ?_
    · obtain ⟨r, x, ⟨l, e', -⟩, -⟩ := hP 0 (by omega)
      simp [e] at e'
    · obtain ⟨r, x, -, ⟨l, e', -⟩, -⟩ := hP 0 (by omega)
      simp [e] at e'
    · refine Outcome.All.bind (setLoop_ok hl hm t vr v n n 0 c 0) ?_
      rintro ⟨c', s, k⟩ ⟨h1, -, h2⟩
      simp only [Nat.zero_add, h, false_or, Nat.le_refl, true_and] at h1
      simp only at h2
      rcases h2 with rfl | rfl
      · exact Outcome.all_ret.2 h1
      · exact Outcome.all_ret.2 h1

theorem exit_okIff {c : Comp F D} (hn : p.needs c.ctx) :
    OkIff (exitInitializationMode m c) (c.ctx.state ∈ Spec.allowedIn .exitInitializationMode) := by
  unfold exitInitializationMode
  refine (begin_okIff (fn := .exitInitializationMode) (P := True) (refresh_okIff hl hm hn fun mv => ?_)).iff (by simp)
  refine .call ?_
  intro x e
  exact .inl ⟨configurate_ok hl hm _ x e, .ok trivial⟩

theorem event_okIff {c : Comp F D} {info : Option (EventInfo F)} (ho : ¬p.over c.mv.data) :
    OkIff (newDiscreteStates m c info) (c.ctx.state ∈ Spec.allowedIn .newDiscreteStates) := by
  unfold newDiscreteStates
  refine (begin_okIff (fn := .newDiscreteStates) (P := True) ?_).iff (by simp)
  have hk : ∀ c : Comp F D, OkIff (match info with
      | none => .ub
      | some _ => .ret (c, .OK, some c.mv.eventInfo)) True := by
    intro c
    split
    · exact Outcome.all_ub.2 trivial
    · exact .ok trivial
  simp only
  cases he : m.eventUpdate with
  | none => exact hk c
  | some eu => exact .call (lift_all fun x e => .inl ⟨hl.event eu he c.ctx c.mv ho x e, hk _⟩)

end

variable [HasInf F]

/-- All calls except DoStep. -/
theorem step_okIff (hl : Lawful m p) (hm : OkOrError m) {fuel : Nat} {w : World F D} {op : Op F} (hn : p.needs w.inst.ctx)
    (hd : op.fn ≠ .doStep) (ho : op.fn = .newDiscreteStates → ¬p.over w.inst.mv.data) :
    (step m fuel w op).All fun x => (x.2.1 = .OK ↔ w.inst.ctx.state ∈ Spec.allowedIn op.fn ∧ Args m p w op) := by
  have simple : ∀ {β : Type} {c : Comp F D} {b : β}, OkIff (.ret (c, .OK, b)) True := fun {_ _ _} => .ok trivial
  have never : ∀ {β : Type} {c : Comp F D} {b : β}, OkIff (.ret (c, .Error, b)) False := fun {_ _ _} => .no (by simp) id
  have status : ∀ {β : Type} {c : Comp F D} {s : StatusKind} {f : Unit → β}, OkIff (callLast (getStatusAux c s) f) False := by
    intro β c s f
    unfold callLast Verif.call getStatusAux
    cases s <;> simp [OkIff, Status.rank]
  cases op <;> dsimp only [step, Op.fn, Args]
  case setDebugLogging on n cats =>
    refine World.run_okIff ?_
    refine begin_okIff (fn := .setDebugLogging) ?_
    exact (setDebugLogging_ok _ _ _ _)
  case setupExperiment =>
    refine World.run_okIff ?_
    refine begin_okIff (fn := .setupExperiment) ?_
    exact simple
  case enterInitializationMode =>
    refine World.run_okIff ?_
    refine begin_okIff (fn := .enterInitializationMode) ?_
    exact simple
  case exitInitializationMode => exact World.run_okIff ((exit_okIff hl hm hn).iff (by simp))
  case terminate =>
    refine World.run_okIff ?_
    refine begin_okIff (fn := .terminate) ?_
    exact simple
  case reset =>
    refine World.run_okIff ?_
    refine begin_okIff (fn := .reset) (P := True) (.callLast ?_)
    simp [Verif.reset]
  case getReal =>
    refine World.run_okIff ?_
    refine begin_okIff (fn := .getReal) ?_
    exact (getVariables_okIff hl hm hn)
  case getInteger =>
    refine World.run_okIff ?_
    refine begin_okIff (fn := .getInteger) ?_
    exact (getVariables_okIff hl hm hn)
  case getBoolean vr n v =>
    refine World.run_okIff ?_
    refine begin_okIff (fn := .getBoolean) ?_
    rcases Nat.eq_zero_or_pos n with rfl | h
    · exact .ok fun _ h => by omega
    · exact (getBooleanLoop_ok hl hm vr h n 0 w.inst v).iff (by simp [Profile.gets])
  case getString =>
    refine World.run_okIff ?_
    refine begin_okIff (fn := .getString) ?_
    exact (getVariables_okIff hl hm hn)
  case setReal =>
    refine World.run_okIff ?_
    refine begin_okIff (fn := .setReal) ?_
    exact (setVariables_okIff hl hm)
  case setInteger =>
    refine World.run_okIff ?_
    refine begin_okIff (fn := .setInteger) ?_
    exact (setVariables_okIff hl hm)
  case setBoolean vr n v =>
    refine World.run_okIff ?_
    refine begin_okIff (fn := .setBoolean) ?_
    rcases Nat.eq_zero_or_pos n with rfl | h
    · exact .ok fun _ h => by omega
    · exact (setBooleanLoop_ok hl hm vr h v n 0 w.inst).iff (by simp only [Nat.zero_add, Profile.sets])
  case setString =>
    refine World.run_okIff ?_
    refine begin_okIff (fn := .setString) ?_
    exact (setVariables_okIff hl hm)
  case getFMUstate =>
    refine World.runSlot_okIff ?_
    refine begin_okIff (fn := .getFMUstate) ?_
    exact simple
  case setFMUstate i =>
    refine World.run_okIff ?_
    refine begin_okIff (fn := .setFMUstate) (P := True) ?_
    split <;> exact simple
  case freeFMUstate =>
    refine World.runSlot_okIff ?_
    refine begin_okIff (fn := .freeFMUstate) ?_
    exact simple
  case serializedFMUstateSize n =>
    refine World.run_okIff ?_
    refine begin_okIff (fn := .serializedFMUstateSize) (P := True) ?_
    split
    · exact Outcome.all_ub.2 trivial
    · exact simple
  case serializeFMUstate i b n =>
    refine World.runBuf_okIff ?_
    refine begin_okIff (fn := .serializeFMUstate) ?_
    split
    · next e => exact .no (by simp) fun h => h.1 e
    · next s e =>
      split
      · next hs => exact .no (by simp) fun h => hs h.2
      · next hs => exact .bind fun _ _ => .ok ⟨by simp [e], by omega⟩
  case deSerializeFMUstate b n i =>
    refine World.runSlot_okIff ?_
    refine begin_okIff (fn := .deSerializeFMUstate) ?_
    split
    · next hs => exact .no (by simp) fun h => hs h
    · next hs => exact .bind fun _ _ => .ok (show n = m.sizeOf by omega)
  case getDirectionalDerivative u nu k nk dv du =>
    
    refine World.run_okIff ?_
    refine begin_okIff (fn := .getDirectionalDerivative) ?_
    exact (derivOuter_ok hl hm dv nk nu 0 w.inst du)
  case setRealInputDerivatives =>
    refine World.run_okIff ?_
    refine begin_okIff (fn := .setRealInputDerivatives) ?_
    exact never
  case getRealOutputDerivatives vr n o v =>
    refine World.run_okIff ?_
    refine begin_okIff (fn := .getRealOutputDerivatives) ?_
    cases hf : m.getOutputDerivative with
    | none =>
      have := hl.noOutDeriv.1 hf
      exact .no (by simp) (by simp [this])
    | some f =>
      cases hp : p.outputDerivatives with
      | none => have := hl.noOutDeriv.2 hp; simp [hf] at this
      | some l => exact (outputDerivLoop_ok hl hm hf hp vr o n 0 w.inst v).iff (by simp)
  case cancelStep =>
    refine World.run_okIff ?_
    refine begin_okIff (fn := .cancelStep) ?_
    exact never
  case doStep => exact absurd rfl hd
  case getStatus =>
    refine World.run_okIff ?_
    refine begin_okIff (fn := .getStatus) ?_
    exact status
  case getRealStatus s v =>
    refine World.run_okIff ?_
    refine begin_okIff (fn := .getRealStatus) ?_
    split
    · next h =>
      split
      · exact Outcome.all_ub.2 trivial
      · exact .ok h
    · next h => exact status.iff (by simp [h])
  case getIntegerStatus =>
    refine World.run_okIff ?_
    refine begin_okIff (fn := .getIntegerStatus) ?_
    exact status
  case getBooleanStatus s v =>
    refine World.run_okIff ?_
    refine begin_okIff (fn := .getBooleanStatus) ?_
    split
    · next h =>
      split
      · exact Outcome.all_ub.2 trivial
      · exact .ok h
    · next h => exact status.iff (by simp [h])
  case getStringStatus =>
    refine World.run_okIff ?_
    refine begin_okIff (fn := .getStringStatus) ?_
    exact status
  case enterEventMode =>
    refine World.run_okIff ?_
    refine begin_okIff (fn := .enterEventMode) ?_
    exact simple
  case newDiscreteStates => exact World.run_okIff ((event_okIff hl hm (ho rfl)).iff (by simp))
  case enterContinuousTimeMode =>
    refine World.run_okIff ?_
    refine begin_okIff (fn := .enterContinuousTimeMode) ?_
    exact simple
  case completedIntegratorStep a b =>
    refine World.run_okIff ?_
    refine begin_okIff (fn := .completedIntegratorStep) ?_
    split
    · next h => exact .no (by simp) (by rintro ⟨h1, h2⟩; cases a <;> cases b <;> simp_all)
    · next h => exact .ok (by cases a <;> cases b <;> simp_all)
  case setTime =>
    refine World.run_okIff ?_
    refine begin_okIff (fn := .setTime) ?_
    exact simple
  case setContinuousStates =>
    
    refine World.run_okIff ?_
    refine begin_okIff (fn := .setContinuousStates) ?_
    exact (vec_okIff hl hm (hl.setStates _ _ _ _) fun _ _ _ e => .setStates e)
  case getDerivatives =>
    
    refine World.run_okIff ?_
    refine begin_okIff (fn := .getDerivatives) ?_
    exact (vec_okIff hl hm (hl.deriv _ _ _ _) fun _ _ _ e => .deriv e)
  case getEventIndicators =>
    
    refine World.run_okIff ?_
    refine begin_okIff (fn := .getEventIndicators) ?_
    exact (vec_okIff hl hm (hl.indicators _ _ _ _) fun _ _ _ e => .indicators e)
  case getContinuousStates =>
    
    refine World.run_okIff ?_
    refine begin_okIff (fn := .getContinuousStates) ?_
    exact (vec_okIff hl hm (hl.getStates _ _ _ _) fun _ _ _ e => .getStates e)
  case getNominals =>
    
    refine World.run_okIff ?_
    refine begin_okIff (fn := .getNominals) ?_
    exact (vec_okIff hl hm (hl.nominals _ _ _ _) fun _ _ _ e => .nominals e)

end FMI2
end Verif
