import Verif.Lemmas.EventInfo
import Verif.Lemmas.LensReads
import Verif.Lemmas.Close
import Verif.Lemmas.DoStep
import Verif.Lemmas.TimeVar
import Verif.Lemmas.ExReach
import Verif.Props.C50

/-!
# C59: nominal values and event information in Model Exchange

The tables of nominal values and the other definitions are in `Spec/EventInfo.lean`.
-/

set_option linter.unusedSectionVars false

namespace Verif

/-- An event update succeeded. -/
def Model.Updated {F D : Type} (m : Model F D) (c : Comp F D) (mv : MV F D) : Prop :=
  (m.eventUpdate = none ∧ mv = c.mv) ∨ ∃ eu, m.eventUpdate = some eu ∧ eu c.ctx c.mv = .ret (mv, .OK, ())

namespace FMI2
variable {F D : Type} [Arith F] [HasInf F] {m : Model F D}

theorem newDiscreteStates_ok (hm : OkOrError m) {fuel : Nat} {w w' : World F D} {info o}
    (e : step m fuel w (.newDiscreteStates info) = .ret (w', .OK, o)) :
    w.inst.ctx.state = .eventMode ∧
    ∃ mv, m.Updated w.inst mv ∧ w' = { w with inst := { w.inst with mv := mv } } ∧ o = .info (some mv.eventInfo) := by
  simp only [step, World.run, newDiscreteStates, begin, beginFunction] at e
  obtain ⟨⟨c, s, b⟩, e1, h⟩ := Outcome.bind_eq_ret.1 e
  cases h
  split at e1
  · next ha =>
    refine ⟨by simpa [Spec.allowedIn] using (allowed_fn w.inst.ctx .newDiscreteStates).1 ha, ?_⟩
    cases info with
    | none =>
      exfalso
      revert e1
      cases he : m.eventUpdate with
      | none => simp
      | some eu =>
        intro e1
        obtain ⟨⟨c₁, s₁, a⟩, e1, e2⟩ := Outcome.bind_eq_ret.1 e1
        obtain ⟨⟨mv', s', b'⟩, e3, e1⟩ := Outcome.bind_eq_ret.1 e1
        cases e1
        rcases hm _ _ _ _ _ (.event he e3) with rfl | rfl <;> simp [Status.rank] at e2
    | some i =>
      revert e1
      cases he : m.eventUpdate with
      | none => intro e1; cases e1; exact ⟨_, .inl ⟨he, rfl⟩, rfl, rfl⟩
      | some eu =>
        intro e1
        obtain ⟨⟨c₁, s₁, a⟩, e1, e2⟩ := Outcome.bind_eq_ret.1 e1
        obtain ⟨⟨mv', s', b'⟩, e3, e1⟩ := Outcome.bind_eq_ret.1 e1
        cases e1
        rcases hm _ _ _ _ _ (.event he e3) with rfl | rfl
        · cases e2; exact ⟨_, .inr ⟨eu, he, e3⟩, rfl, rfl⟩
        · simp [Status.rank] at e2
  · simp at e1

/-- The state vector is read the same way from two instances. -/
theorem sameStates {w : World F D} {mv : MV F D}
    (h : ∀ ctx p n, (m.getContinuousStates ctx w.inst.mv p n).shown = (m.getContinuousStates ctx mv p n).shown) :
    SameStates m w { w with inst := { w.inst with mv := mv } } := by
  intro fuel p n
  have := h w.inst.ctx p n
  simp only [step, World.run, getContinuousStates, begin, beginFunction]
  by_cases ha : allowed w.inst.ctx MASK_GetEventIndicators = true
  · simp only [if_pos ha, callLast, call, Comp.lift]
    revert this
    cases m.getContinuousStates w.inst.ctx w.inst.mv p n with
    | ub => cases m.getContinuousStates w.inst.ctx mv p n <;> simp [Outcome.shown]
    | hang => cases m.getContinuousStates w.inst.ctx mv p n <;> simp [Outcome.shown]
    | ret a =>
      cases m.getContinuousStates w.inst.ctx mv p n with
      | ub => simp [Outcome.shown]
      | hang => simp [Outcome.shown]
      | ret b =>
        obtain ⟨_, s, q⟩ := a
        obtain ⟨_, s', q'⟩ := b
        simp only [Outcome.shown, Outcome.ret.injEq]
        intro h
        cases h
        cases s <;> rfl
  · simp only [if_neg ha]
    rfl

/-- **C59**, FMI 2.0: the nominal values of the continuous states are those of the model description. -/
theorem C59_nominals_fmi2 {nom : List Rat} (hm : Nominals m nom) {fuel : Nat} {w w' : World F D} {l : List F} {n : Nat} {o}
    (e : step m fuel w (.getNominals (some l) n) = .ret (w', .OK, o)) :
    n = nom.length ∧ o = .reals (some (nom.map Arith.lit ++ l.drop n)) := by
  simp only [step, World.run, getNominals, begin, beginFunction] at e
  obtain ⟨⟨c, s, x⟩, e1, h⟩ := Outcome.bind_eq_ret.1 e
  cases h
  split at e1
  · obtain ⟨mv', a, e2, rfl, -⟩ := callLast_ok e1
    suffices n = nom.length ∧ x = some (nom.map Arith.lit ++ l.drop n) by rw [this.2]; exact ⟨this.1, rfl⟩
    cases hm
    · exact putVector_ok e2
    · exact putVector_ok e2
    · exact vecStub_ok e2
    · exact vecStub_ok e2
    · exact vecStub_ok e2
    · exact putVector_ok e2
  · cases e1

/-- **C59**, FMI 2.0: what `fmi2NewDiscreteStates` tells about the continuous states is true. It never announces changed
nominal values, and if it does not announce changed states, the importer reads the same states as before. -/
theorem C59_event_info_fmi2 (hm : RefFMU2 m) {t : IType} {w w' : World F D} (hr : Reachable m t w) {fuel : Nat} {info o}
    (e : step m fuel w (.newDiscreteStates info) = .ret (w', .OK, o)) :
    ∃ i, o = .info (some i) ∧ i.nominalsChanged = false ∧ (i.valuesChanged = false → SameStates m w w') := by
  have hw := (hr.mv hm.eff.okOrError (nominals_inv hm.eff hm.honest (by intros; cases hm <;> rfl)) rfl).inst
  obtain ⟨-, mv, hu, rfl, rfl⟩ := newDiscreteStates_ok hm.eff.okOrError e
  refine ⟨_, rfl, ?_, fun hv => ?_⟩
  · rcases hu with ⟨-, rfl⟩ | ⟨eu, h1, h2⟩
    · exact hw
    · exact hm.honest.nominals h1 h2 hw
  · rcases hu with ⟨-, rfl⟩ | ⟨eu, h1, h2⟩
    · exact fun _ _ _ => rfl
    · exact sameStates (hm.honest.states h1 h2 hv)

/-- **C59**, FMI 2.0: no FMU but Stair announces a time event or asks for the end of the simulation. -/
theorem C59_timeless_fmi2 (hm : Timeless m) {t : IType} {w w' : World F D} (hr : Reachable m t w) {fuel : Nat} {info o}
    (e : step m fuel w (.newDiscreteStates info) = .ret (w', .OK, o)) :
    ∃ i, o = .info (some i) ∧ i.terminateSimulation = false ∧ i.nextEventTimeDefined = false := by
  have ho := hm.ref.eff.okOrError
  have hw := (hr.mv ho hm.inv ⟨rfl, rfl⟩).inst
  obtain ⟨-, mv, hu, rfl, rfl⟩ := newDiscreteStates_ok ho e
  refine ⟨_, rfl, ?_⟩
  rcases hu with ⟨-, rfl⟩ | ⟨eu, h1, h2⟩
  · exact hw
  · exact hm.inv.step hw (.event h1 h2)

/-- **C59**, FMI 2.0: the end of an integrator step never requires an event or ends the simulation. -/
theorem C59_completed_fmi2 {fuel : Nat} {w w' : World F D} {a b o}
    (e : step m fuel w (.completedIntegratorStep a b) = .ret (w', .OK, o)) :
    w' = w ∧ o = .flags (some false) (some false) := by
  simp only [step, World.run, completedIntegratorStep, begin, beginFunction] at e
  obtain ⟨⟨c, s, x⟩, e1, h⟩ := Outcome.bind_eq_ret.1 e
  cases h
  split at e1
  · split at e1
    · cases e1
    · cases e1; exact ⟨rfl, rfl⟩
  · cases e1

/-- An announced time event of Stair is handled when, and only when, its time has come. -/
theorem stair_event {w w' : World XRat Stair.Data} {T t : Rat} {n : Int} (hT : Announced (.fin T) w.inst) {fuel : Nat} {info o}
    (ht : ReadsReal Stair.model w 0 (.fin t)) (hn : ReadsInteger Stair.model w 1 n)
    (e : step Stair.model fuel w (.newDiscreteStates info) = .ret (w', .OK, o)) : StairEvent T t n w' o := by
  obtain ⟨-, mv, hu, rfl, rfl⟩ := newDiscreteStates_ok (RefFMU2.stair (F := XRat)).eff.okOrError e
  rcases hu with ⟨h, -⟩ | ⟨eu, h1, h2⟩
  · cases h
  cases h1
  obtain ⟨-, h3, h4, h5⟩ := Stair.updated h2
  have ha : w.inst.ctx.state ∈ Spec.allowedIn .getReal := Reads.allowed (t := .int32) hn
  have hc : w.inst.mv.data.counter = n :=
    Reads.unique (t := .int32) (reads_lens (Lens.stair (F := XRat)) (r := 1) (by simp) (.inr (.inl rfl)) ha) hn
  have hw : w.inst.ctx.time = .fin t :=
    Reads.unique (t := .float64) (reads_lens (Lens.stair (F := XRat)) (r := 0) (by simp) (.inl rfl) ha) ht
  have hr : ReadsInteger Stair.model { w with inst := { w.inst with mv := mv } } 1 mv.data.counter :=
    reads_lens (Lens.stair (F := XRat)) (t := .int32) (r := 1) (by simp) (.inr (.inl rfl)) ha
  have hi : (w.inst.mv.nextEventTimeDefined = true ∧ isClose w.inst.ctx.time w.inst.mv.nextEventTime = true) ↔ Close t T := by
    rw [hT.1, hT.2, hw, isClose_fin]; simp
  rw [hc] at h5
  refine ⟨_, rfl, h4, ?_, fun h => ?_, fun h => ?_⟩
  · refine (Bool.eq_iff_iff.1 h3).trans (decide_eq_true_iff.trans ⟨fun h => h ▸ hr, fun h => ?_⟩)
    exact Reads.unique (t := .int32) hr h
  · rw [if_pos (hi.2 h)] at h5; rw [h5.1] at hr; exact ⟨hr, h5.2.trans (by rw [hT.2]; simp)⟩
  · rw [if_neg fun h' => h (hi.1 h')] at h5; rw [h5.1] at hr; exact ⟨hr, h5.2.trans hT.2⟩

/-- **C59**, FMI 2.0: the first time event of Stair is at time 1. -/
theorem C59_stair_first_fmi2 {t : IType} {w₀ w w' : World XRat Stair.Data} {name guid resource functions loggingOn mem c l}
    (hc : instantiate Stair.model name t guid resource functions loggingOn mem = (some c, l)) (h₀ : w₀.Initial c) {fuel : Nat}
    {ops : List (Op XRat)} {tr} (hops : ∀ op ∈ ops, ¬ Forgets op.fn) (e₁ : run Stair.model fuel w₀ ops = .ret (w, tr))
    {τ : Rat} {n : Int} (ht : ReadsReal Stair.model w 0 (.fin τ)) (hn : ReadsInteger Stair.model w 1 n) {info o}
    (e : step Stair.model fuel w (.newDiscreteStates info) = .ret (w', .OK, o)) : StairEvent 1 τ n w' o := by
  have he := (RefFMU2.stair (F := XRat)).eff
  have h1 : Announced (.fin 1) w₀.inst := by
    unfold instantiate at hc
    split at hc
    · simp at hc
    · simp at hc
    · rw [h₀.inst, Announced, createModelInstance_mv hc]
      exact ⟨rfl, rfl⟩
  exact stair_event (run_keepX he.okOrError (Announced.callInv he _) (Announced.flagClosed _) ops h1 hops _ e₁) ht hn e

/-- **C59**, FMI 2.0: Stair announces a time event, and keeps to what it announced. -/
theorem C59_stair_fmi2 {t : IType} {w₀ w₁ w w' : World XRat Stair.Data} (h₀ : Reachable Stair.model t w₀) {fuel : Nat} {info₀ o₀}
    (e₀ : step Stair.model fuel w₀ (.newDiscreteStates info₀) = .ret (w₁, .OK, o₀)) :
    ∃ i T, o₀ = .info (some i) ∧ i.nextEventTimeDefined = true ∧ i.nextEventTime = .fin T ∧
    ∀ {ops : List (Op XRat)} {tr}, (∀ op ∈ ops, ¬ Forgets op.fn) → run Stair.model fuel w₁ ops = .ret (w, tr) →
    ∀ {τ : Rat} {n : Int}, ReadsReal Stair.model w 0 (.fin τ) → ReadsInteger Stair.model w 1 n →
    ∀ {info o}, step Stair.model fuel w (.newDiscreteStates info) = .ret (w', .OK, o) → StairEvent T τ n w' o := by
  have he := (RefFMU2.stair (F := XRat)).eff
  have h1 := (h₀.mv he.okOrError Stair.finite ⟨0, rfl⟩).inst
  obtain ⟨-, mv, hu, rfl, rfl⟩ := newDiscreteStates_ok he.okOrError e₀
  rcases hu with ⟨h, -⟩ | ⟨eu, h2, h3⟩
  · cases h
  obtain ⟨T, hT⟩ := Stair.finite.step h1 (.event h2 h3)
  cases h2
  have hd := (Stair.updated h3).2.2.1
  exact ⟨_, T, rfl, hd, hT, fun hops e₁ _ _ ht hn _ _ e =>
    stair_event (run_keepX he.okOrError (Announced.callInv he _) (Announced.flagClosed _) _ ⟨hd, hT⟩ hops _ e₁) ht hn e⟩

end FMI2

namespace FMI3
variable {F D : Type} [Arith F] [HasInf F] {m : Model F D}

theorem updateDiscreteStates_ok (hm : OkOrError m) {fuel : Nat} {w w' : World F D} {out : EventOut F} {o}
    (e : step m fuel w (.updateDiscreteStates out) = .ret (w', .OK, o)) :
    ∃ mv, m.Updated w.inst mv ∧ w' = { w with inst := { w.inst with mv := mv } } ∧ o = .event (fillEventOut mv out) := by
  simp only [step, World.run, updateDiscreteStates, begin, beginFunction] at e
  obtain ⟨⟨c, s, b⟩, e1, h⟩ := Outcome.bind_eq_ret.1 e
  cases h
  split at e1
  · revert e1
    cases he : m.eventUpdate with
    | none => intro e1; cases e1; exact ⟨_, .inl ⟨he, rfl⟩, rfl, rfl⟩
    | some eu =>
      intro e1
      obtain ⟨⟨c₁, s₁, a⟩, e1, e2⟩ := Outcome.bind_eq_ret.1 e1
      obtain ⟨⟨mv', s', b'⟩, e3, e1⟩ := Outcome.bind_eq_ret.1 e1
      cases e1
      rcases hm _ _ _ _ _ (.event he e3) with rfl | rfl
      · cases e2; exact ⟨_, .inr ⟨eu, he, e3⟩, rfl, rfl⟩
      · simp [Status.rank] at e2
  · simp at e1

/-- The state vector is read the same way from two instances. -/
theorem sameStates {w : World F D} {mv : MV F D}
    (h : ∀ ctx p n, (m.getContinuousStates ctx w.inst.mv p n).shown = (m.getContinuousStates ctx mv p n).shown) :
    SameStates m w { w with inst := { w.inst with mv := mv } } := by
  intro fuel p n
  have := h w.inst.ctx p n
  simp only [step, World.run, getContinuousStates, begin, beginFunction]
  by_cases ha : allowed w.inst.ctx MASK_GetContinuousStateDerivatives = true
  · simp only [if_pos ha, callLast, call, Comp.lift]
    revert this
    cases m.getContinuousStates w.inst.ctx w.inst.mv p n with
    | ub => cases m.getContinuousStates w.inst.ctx mv p n <;> simp [Outcome.shown]
    | hang => cases m.getContinuousStates w.inst.ctx mv p n <;> simp [Outcome.shown]
    | ret a =>
      cases m.getContinuousStates w.inst.ctx mv p n with
      | ub => simp [Outcome.shown]
      | hang => simp [Outcome.shown]
      | ret b =>
        obtain ⟨_, s, q⟩ := a
        obtain ⟨_, s', q'⟩ := b
        simp only [Outcome.shown, Outcome.ret.injEq]
        intro h
        cases h
        cases s <;> rfl
  · simp only [if_neg ha]
    rfl

/-- **C59**, FMI 3.0: the nominal values of the continuous states are those of the model description. -/
theorem C59_nominals_fmi3 {nom : List Rat} (hm : Nominals m nom) {fuel : Nat} {w w' : World F D} {l : List F} {n : Nat} {o}
    (e : step m fuel w (.getNominals (some l) n) = .ret (w', .OK, o)) :
    n = nom.length ∧ o = .reals (some (nom.map Arith.lit ++ l.drop n)) := by
  simp only [step, World.run, getNominals, begin, beginFunction] at e
  obtain ⟨⟨c, s, x⟩, e1, h⟩ := Outcome.bind_eq_ret.1 e
  cases h
  split at e1
  · obtain ⟨mv', a, e2, rfl, -⟩ := callLast_ok e1
    suffices n = nom.length ∧ x = some (nom.map Arith.lit ++ l.drop n) by rw [this.2]; exact ⟨this.1, rfl⟩
    cases hm
    · exact putVector_ok e2
    · exact putVector_ok e2
    · exact vecStub_ok e2
    · exact vecStub_ok e2
    · exact putVector_ok e2
    · exact vecStub_ok e2
    · exact putVector_ok e2
  · cases e1

/-- **C59**, FMI 3.0: the nominal values of StateSpace are all 1 for each size of the state. -/
theorem C59_nominals_statespace {fuel : Nat} {w w' : World F (StateSpace.Data F)} {l : List F} {n : Nat} {o}
    (e : step StateSpace.model fuel w (.getNominals (some l) n) = .ret (w', .OK, o)) :
    o = .reals (some (List.replicate n (Arith.lit 1) ++ l.drop n)) := by
  simp only [step, World.run, getNominals, begin, beginFunction] at e
  obtain ⟨⟨c, s, x⟩, e1, h⟩ := Outcome.bind_eq_ret.1 e
  cases h
  split at e1
  · obtain ⟨mv', a, e2, rfl, -⟩ := callLast_ok e1
    simp only [StateSpace.model, assertNotNull, Option.isNone_some, Bool.false_eq_true, if_false] at e2
    unfold StateSpace.checkNx at e2
    split at e2
    · cases e2
    · next hn =>
      have hn : n = w.inst.mv.data.n := by simpa using hn
      obtain ⟨p, e1, e2⟩ := Outcome.bind_eq_ret.1 e2
      have h := writeN_fits (Nat.zero_le _) e1
      rw [writeN_eq _ _ _ h] at e1
      cases e1; cases e2
      simp [StateSpace.elems, hn, List.eq_replicate_iff]
  · cases e1

/-- **C59**, FMI 3.0: what `fmi3UpdateDiscreteStates` tells about the continuous states is true. It never announces changed
nominal values, and if it does not announce changed states, the importer reads the same states as before. -/
theorem C59_event_info_fmi3 (hm : RefFMU3 m) {t : IType} {w w' : World F D} (hr : Reachable m t w) {fuel : Nat}
    {out : EventOut F} {o} (e : step m fuel w (.updateDiscreteStates out) = .ret (w', .OK, o)) :
    ∃ i, o = .event i ∧ (∀ b, i.nominalsChanged = some b → b = false) ∧ (i.valuesChanged = some false → SameStates m w w') := by
  have hw := (hr.mv hm.eff.okOrError (nominals_inv hm.eff hm.honest (by intros; cases hm <;> rfl)) rfl).inst
  obtain ⟨mv, hu, rfl, rfl⟩ := updateDiscreteStates_ok hm.eff.okOrError e
  refine ⟨_, rfl, fun b hb => ?_, fun hv => ?_⟩
  · simp only [fillEventOut, Option.map_eq_some_iff] at hb
    obtain ⟨-, -, rfl⟩ := hb
    rcases hu with ⟨-, rfl⟩ | ⟨eu, h1, h2⟩
    · exact hw
    · exact hm.honest.nominals h1 h2 hw
  · simp only [fillEventOut, Option.map_eq_some_iff] at hv
    obtain ⟨-, -, hv⟩ := hv
    rcases hu with ⟨-, rfl⟩ | ⟨eu, h1, h2⟩
    · exact fun _ _ _ => rfl
    · exact sameStates (hm.honest.states h1 h2 hv)

/-- **C59**, FMI 3.0: no FMU but Stair announces a time event or asks for the end of the simulation. -/
theorem C59_timeless_fmi3 (hm : Timeless m) {t : IType} {w w' : World F D} (hr : Reachable m t w) {fuel : Nat}
    {out : EventOut F} {o} (e : step m fuel w (.updateDiscreteStates out) = .ret (w', .OK, o)) :
    ∃ i, o = .event i ∧ (∀ b, i.terminateSimulation = some b → b = false) ∧ ∀ b, i.nextEventTimeDefined = some b → b = false := by
  have ho := hm.ref.eff.okOrError
  have hw := (hr.mv ho hm.inv ⟨rfl, rfl⟩).inst
  obtain ⟨mv, hu, rfl, rfl⟩ := updateDiscreteStates_ok ho e
  have hmv : mv.terminateSimulation = false ∧ mv.nextEventTimeDefined = false := by
    rcases hu with ⟨-, rfl⟩ | ⟨eu, h1, h2⟩
    · exact hw
    · exact hm.inv.step hw (.event h1 h2)
  refine ⟨_, rfl, fun b hb => ?_, fun b hb => ?_⟩ <;> simp only [fillEventOut, Option.map_eq_some_iff] at hb <;>
    obtain ⟨-, -, rfl⟩ := hb
  · exact hmv.1
  · exact hmv.2

/-- **C59**, FMI 3.0: the end of an integrator step never requires an event or ends the simulation. -/
theorem C59_completed_fmi3 {fuel : Nat} {w w' : World F D} {a b o}
    (e : step m fuel w (.completedIntegratorStep a b) = .ret (w', .OK, o)) :
    w' = w ∧ o = .flags (some false) (some false) := by
  simp only [step, World.run, completedIntegratorStep, begin, beginFunction, assertNonNull] at e
  obtain ⟨⟨c, s, x⟩, e1, h⟩ := Outcome.bind_eq_ret.1 e
  cases h
  split at e1
  · split at e1
    · cases e1
    · split at e1
      · cases e1
      · cases e1; exact ⟨rfl, rfl⟩
  · cases e1

/-- An announced time event of Stair is handled when, and only when, its time has come. -/
theorem stair_event {w w' : World XRat Stair.Data} {T t : Rat} {n : Int} (hT : Announced (.fin T) w.inst) {fuel : Nat} {info o}
    (ht : Reads Stair.model w .float64 0 (.fin t)) (hn : Reads Stair.model w .int32 1 n)
    (e : step Stair.model fuel w (.updateDiscreteStates info) = .ret (w', .OK, o)) : StairEvent T t n w' o := by
  obtain ⟨mv, hu, rfl, rfl⟩ := updateDiscreteStates_ok (RefFMU3.stair (F := XRat)).eff.okOrError e
  rcases hu with ⟨h, -⟩ | ⟨eu, h1, h2⟩
  · cases h
  cases h1
  obtain ⟨-, h3, h4, h5⟩ := Stair.updated h2
  have ha : w.inst.ctx.state ∈ Spec.allowedIn (.get .int32) := Reads.allowed hn
  have hc : w.inst.mv.data.counter = n :=
    Reads.unique (t := .int32) (reads_lens (Lens.stair (F := XRat)) (r := 1) (by simp) ha) hn
  have hw : w.inst.ctx.time = .fin t :=
    Reads.unique (t := .float64) (reads_lens (Lens.stair (F := XRat)) (r := 0) (by simp) ha) ht
  have hr : Reads Stair.model { w with inst := { w.inst with mv := mv } } .int32 1 mv.data.counter :=
    reads_lens (Lens.stair (F := XRat)) (t := .int32) (r := 1) (by simp) ha
  have hi : (w.inst.mv.nextEventTimeDefined = true ∧ isClose w.inst.ctx.time w.inst.mv.nextEventTime = true) ↔ Close t T := by
    rw [hT.1, hT.2, hw, isClose_fin]; simp
  rw [hc] at h5
  refine ⟨_, rfl, fun b hb => ?_, fun b hb => ?_, fun h => ?_, fun h => ?_⟩
  · simp only [fillEventOut, Option.map_eq_some_iff] at hb
    obtain ⟨-, -, rfl⟩ := hb
    exact h4
  · simp only [fillEventOut, Option.map_eq_some_iff] at hb
    obtain ⟨-, -, rfl⟩ := hb
    refine (Bool.eq_iff_iff.1 h3).trans (decide_eq_true_iff.trans ⟨fun h => h ▸ hr, fun h => ?_⟩)
    exact Reads.unique (t := .int32) hr h
  · rw [if_pos (hi.2 h)] at h5
    rw [h5.1] at hr
    refine ⟨hr, fun q hq => ?_⟩
    simp only [fillEventOut, Option.map_eq_some_iff] at hq
    obtain ⟨-, -, rfl⟩ := hq
    exact h5.2.trans (by rw [hT.2]; simp)
  · rw [if_neg fun h' => h (hi.1 h')] at h5
    rw [h5.1] at hr
    refine ⟨hr, fun q hq => ?_⟩
    simp only [fillEventOut, Option.map_eq_some_iff] at hq
    obtain ⟨-, -, rfl⟩ := hq
    exact h5.2.trans hT.2

/-- **C59**, FMI 3.0: the first time event of Stair is at time 1. -/
theorem C59_stair_first_fmi3 {t : IType} {w₀ w w' : World XRat Stair.Data} {c} (hc : New Stair.model t c) (h₀ : w₀.Initial c)
    {fuel : Nat} {ops : List (Op XRat)} {tr} (hops : ∀ op ∈ ops, ¬ Forgets op.fn) (e₁ : run Stair.model fuel w₀ ops = .ret (w, tr))
    {τ : Rat} {n : Int} (ht : Reads Stair.model w .float64 0 (.fin τ)) (hn : Reads Stair.model w .int32 1 n) {info o}
    (e : step Stair.model fuel w (.updateDiscreteStates info) = .ret (w', .OK, o)) : StairEvent 1 τ n w' o := by
  have he := (RefFMU3.stair (F := XRat)).eff
  have h1 : Announced (.fin 1) w₀.inst := by
    obtain ⟨_, _, _, _, _, _, _, c₀, _, _, _, _, _, _, e, rfl⟩ := hc.created
    rw [h₀.inst, Announced]
    show c₀.mv.nextEventTimeDefined = true ∧ c₀.mv.nextEventTime = _
    rw [createModelInstance_mv e]
    exact ⟨rfl, rfl⟩
  exact stair_event (run_keepX he.okOrError (Announced.callInv he _) (Announced.flagClosed _) ops h1 hops _ e₁) ht hn e

/-- **C59**, FMI 3.0: Stair announces a time event, and keeps to what it announced. -/
theorem C59_stair_fmi3 {t : IType} {w₀ w₁ w w' : World XRat Stair.Data} (h₀ : Reachable Stair.model t w₀) {fuel : Nat} {info₀ o₀}
    (e₀ : step Stair.model fuel w₀ (.updateDiscreteStates info₀) = .ret (w₁, .OK, o₀)) :
    ∃ i T, o₀ = .event i ∧ (∀ b, i.nextEventTimeDefined = some b → b = true) ∧ (∀ q, i.nextEventTime = some q → q = .fin T) ∧
    ∀ {ops : List (Op XRat)} {tr}, (∀ op ∈ ops, ¬ Forgets op.fn) → run Stair.model fuel w₁ ops = .ret (w, tr) →
    ∀ {τ : Rat} {n : Int}, Reads Stair.model w .float64 0 (.fin τ) → Reads Stair.model w .int32 1 n →
    ∀ {info o}, step Stair.model fuel w (.updateDiscreteStates info) = .ret (w', .OK, o) → StairEvent T τ n w' o := by
  have he := (RefFMU3.stair (F := XRat)).eff
  have h1 := (h₀.mv he.okOrError Stair.finite ⟨0, rfl⟩).inst
  obtain ⟨mv, hu, rfl, rfl⟩ := updateDiscreteStates_ok he.okOrError e₀
  rcases hu with ⟨h, -⟩ | ⟨eu, h2, h3⟩
  · cases h
  obtain ⟨T, hT⟩ := Stair.finite.step h1 (.event h2 h3)
  cases h2
  have hd := (Stair.updated h3).2.2.1
  refine ⟨_, T, rfl, fun b hb => ?_, fun b hb => ?_, fun hops e₁ _ _ ht hn _ _ e =>
    stair_event (run_keepX he.okOrError (Announced.callInv he _) (Announced.flagClosed _) _ ⟨hd, hT⟩ hops _ e₁) ht hn e⟩ <;>
    simp only [fillEventOut, Option.map_eq_some_iff] at hb <;> obtain ⟨-, -, rfl⟩ := hb
  · exact hd
  · exact hT

end FMI3

/-- Non-vacuity: the nominal values of Roberts. -/
example : (Ex.runME3 Roberts.model (Ex.init3 ++ [.getNominals (some [.fin 7, .fin 7]) 2])).is (fun x => match x.2.getLast? with
    | some (.OK, .reals o) => o == some [.fin (1 / 10000), .fin (1 / 100)]
    | _ => false) = true := by
  decide +kernel

/-- Non-vacuity: an update that announces changed states, and one that does not. -/
example : (Ex.run2 BouncingBall.model .modelExchange (Ex.init2 ++ [.newDiscreteStates (some Ex.info), .enterContinuousTimeMode,
    .setContinuousStates (some [.fin (-1), .fin (-2)]) 2, .enterEventMode,
    .newDiscreteStates (some Ex.info)])).is (fun x => x.2.map (fun y => match y with
      | (.OK, .info (some i)) => some i.valuesChanged
      | _ => none) |>.filterMap id |> (· == [false, true])) = true := by
  decide +kernel

/-- Non-vacuity, FMI 2.0: the importer updates before and at the announced time. -/
example : (Ex.run2 Stair.model .modelExchange (Ex.init2 ++ [.setTime (.fin (1 / 2)), .newDiscreteStates (some Ex.info), .setTime (.fin 1),
    .newDiscreteStates (some Ex.info), .getInteger (some [1]) 1 (some [0])])).is (fun x => x.2.map (fun y => match y with
      | (.OK, .info (some i)) => [i.nextEventTime]
      | (.OK, .ints (some [v])) => [.fin v]
      | _ => []) |>.flatten |> (· == [.fin 1, .fin 2, .fin 2])) = true := by
  decide +kernel

/-- Non-vacuity, FMI 3.0: the last time event, after which the simulation shall be ended. -/
example : (Ex.runME3 Stair.model ([.set .int32 (some [1]) 1 (some [9]) 1] ++ Ex.init3 ++ [.updateDiscreteStates Ex.eventOut,
    .setTime (.fin 1), .updateDiscreteStates Ex.eventOut])).is (fun x => x.2.map (fun y => match y with
      | (.OK, .event i) => [(i.nextEventTime, i.terminateSimulation)]
      | _ => []) |>.flatten |> (· == [(some (.fin 1), some false), (some (.fin 2), some true)])) = true := by
  decide +kernel

end Verif
