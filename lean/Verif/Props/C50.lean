import Verif.Lemmas.Reach3
import Verif.Examples

/-!
# C50: event iteration converges after one update
-/

set_option linter.unusedSectionVars false

namespace Verif
variable {F D : Type} [Arith F] [HasInf F] {m : Model F D}

theorem RefFMU2.start_nds {m : Model F D} (h : RefFMU2 m) (ctx : Ctx F) (mv : MV F D) :
    (m.setStartValues ctx mv).newDiscreteStatesNeeded = mv.newDiscreteStatesNeeded := by
  cases h <;> rfl
theorem RefFMU3.start_nds {m : Model F D} (h : RefFMU3 m) (ctx : Ctx F) (mv : MV F D) :
    (m.setStartValues ctx mv).newDiscreteStatesNeeded = mv.newDiscreteStatesNeeded := by
  cases h <;> rfl

theorem nds_inv (he : m.Eff)
    (hs : ∀ ctx mv, (m.setStartValues ctx mv).newDiscreteStatesNeeded = mv.newDiscreteStatesNeeded) :
    MVInv m fun mv => mv.newDiscreteStatesNeeded = false where
  step h e := (he _ _ _ _ _ e).nds.trans h
  dirty _ h := h
  trace _ h := h
  start h := (hs _ _).trans h

/-- **C50**, FMI 2.0: after every history, `fmi2NewDiscreteStates` does not ask for another
iteration. -/
theorem FMI2.C50_no_second_iteration (hm : RefFMU2 m) {t : IType} {w w' : World F D}
    (hr : Reachable m t w) {fuel : Nat} {info : Option (EventInfo F)} {o : Out F}
    (h : step m fuel w (.newDiscreteStates info) = .ret (w', .OK, o)) :
    ∃ i, o = .info (some i) ∧ i.newDiscreteStatesNeeded = false := by
  have hw := (hr.mv hm.eff.okOrError (nds_inv hm.eff hm.start_nds) rfl).inst
  simp only [step, World.run, newDiscreteStates, begin, beginFunction] at h
  obtain ⟨⟨c, s, b⟩, e, h⟩ := Outcome.bind_eq_ret.1 h
  simp only [Outcome.ret.injEq, Prod.mk.injEq] at h
  obtain ⟨rfl, rfl, rfl⟩ := h
  split at e
  · have fin : ∀ (c₁ : Comp F D) (st : Status), c₁.mv.newDiscreteStatesNeeded = false →
        (match info with
          | none => (.ub : Res F D (Option (EventInfo F)))
          | some _ => .ret (c₁, st, some c₁.mv.eventInfo)) = .ret (c, .OK, b) →
        ∃ i, Out.info b = .info (some i) ∧ i.newDiscreteStatesNeeded = false := by
      intro c₁ st h1 h2
      split at h2
      · cases h2
      · cases h2; exact ⟨_, rfl, h1⟩
    split at e
    · exact fin _ _ hw e
    · next eu he =>
      obtain ⟨⟨c₁, s₁, a⟩, e1, e⟩ := Outcome.bind_eq_ret.1 e
      obtain ⟨⟨mv', s', b'⟩, e2, e1⟩ := Outcome.bind_eq_ret.1 e1
      cases e1
      have hs := hm.eff _ _ _ _ _ (.event he e2)
      rcases hs.status with rfl | rfl
      · exact fin _ _ (hs.nds.trans hw) e
      · simp [Status.rank] at e
  · simp at e

/-- **C50**, FMI 3.0: after every history, `fmi3UpdateDiscreteStates` does not ask for another
iteration (if the importer asks for that output at all). -/
theorem FMI3.C50_no_second_iteration (hm : RefFMU3 m) {t : IType} {w w' : World F D}
    (hr : Reachable m t w) {fuel : Nat} {out : EventOut F} {o : Out F}
    (h : step m fuel w (.updateDiscreteStates out) = .ret (w', .OK, o)) :
    ∃ i, o = .event i ∧ i.discreteStatesNeedUpdate = out.discreteStatesNeedUpdate.map fun _ => false := by
  have hw := (hr.mv hm.eff.okOrError (nds_inv hm.eff hm.start_nds) rfl).inst
  simp only [step, World.run, updateDiscreteStates, begin, beginFunction] at h
  obtain ⟨⟨c, s, b⟩, e, h⟩ := Outcome.bind_eq_ret.1 h
  simp only [Outcome.ret.injEq, Prod.mk.injEq] at h
  obtain ⟨rfl, rfl, rfl⟩ := h
  split at e
  · split at e
    · cases e; exact ⟨_, rfl, by simp [fillEventOut, hw]⟩
    · next eu he =>
      obtain ⟨⟨c₁, s₁, a⟩, e1, e⟩ := Outcome.bind_eq_ret.1 e
      obtain ⟨⟨mv', s', b'⟩, e2, e1⟩ := Outcome.bind_eq_ret.1 e1
      cases e1
      have hs := hm.eff _ _ _ _ _ (.event he e2)
      rcases hs.status with rfl | rfl
      · cases e; exact ⟨_, rfl, by simp [fillEventOut, hs.nds.trans hw]⟩
      · simp [Status.rank] at e
  · simp at e

/-- Room for the event info. -/
def Ex.info : EventInfo XRat := ⟨true, true, true, true, true, .fin 7⟩
/-- Room for the outputs of `fmi3UpdateDiscreteStates`. -/
def Ex.eventOut : FMI3.EventOut XRat :=
  ⟨some true, some true, some true, some true, some true, some (.fin 7)⟩

/-- Non-vacuity, FMI 2.0: a bounce of the ball handled in Event Mode. -/
example : (Ex.run2 BouncingBall.model .modelExchange (Ex.init2 ++ [.enterContinuousTimeMode,
    .setContinuousStates (some [.fin (-1), .fin (-2)]) 2, .enterEventMode,
    .newDiscreteStates (some Ex.info)])).is (fun x =>
    x.2.getLast? == some (.OK, .info (some ⟨false, false, false, true, false, .fin 0⟩))) = true := by
  decide +kernel

/-- Non-vacuity, FMI 3.0: the step of the Stair FMU at time 1. -/
example : (Ex.runME3 Stair.model (Ex.init3 ++ [.setTime (.fin 1),
    .updateDiscreteStates Ex.eventOut])).is (fun x => match x.2.getLast? with
    | some (.OK, .event o) => o == ⟨some false, some false, some false, some false, some true, some (.fin 2)⟩
    | _ => false) = true := by
  decide +kernel

end Verif
