import Verif.Lemmas.Reading
import Verif.Lemmas.Keep
import Verif.Lemmas.Readable

/-!
# Quantities that no function of `model.c` changes in certain modes
-/

set_option linter.unusedSectionVars false

namespace Verif
variable {F D V : Type} {m : Model F D} {sel : D → V} {G : Ctx F → Prop}

/-- In the situations `G` no function of the FMU changes `sel`. -/
def Model.Fixed (m : Model F D) (G : Ctx F → Prop) (sel : D → V) : Prop :=
  ∀ f ctx mv mv' s, G ctx → MStep m f ctx mv mv' s → sel mv'.data = sel mv.data

theorem Model.Fixed.intro
    (hcalc : ∀ ctx mv, G ctx → KeepR sel mv.data (m.calculateValues ctx mv))
    (get : ∀ t ctx mv vr p n i, G ctx → KeepR sel mv.data (m.get t ctx mv vr p n i))
    (set : ∀ t ctx mv vr p n i, G ctx → KeepR sel mv.data (m.set t ctx mv vr p n i))
    (event : ∀ eu, m.eventUpdate = some eu → ∀ ctx mv, G ctx → KeepR sel mv.data (eu ctx mv))
    (getStates : ∀ ctx mv p n, G ctx → KeepR sel mv.data (m.getContinuousStates ctx mv p n))
    (nominals : ∀ ctx mv p n, G ctx → KeepR sel mv.data (m.getNominals ctx mv p n))
    (setStates : ∀ ctx mv p n, G ctx → KeepR sel mv.data (m.setContinuousStates ctx mv p n))
    (deriv : ∀ ctx mv p n, G ctx → KeepR sel mv.data (m.getDerivatives ctx mv p n))
    (ind : ∀ ctx mv p n, G ctx → KeepR sel mv.data (m.getEventIndicators ctx mv p n))
    (pd : ∀ ctx mv u k o, G ctx → KeepR sel mv.data (m.getPartialDerivative ctx mv u k o))
    (od : ∀ g, m.getOutputDerivative = some g → ∀ ctx mv vr o v, G ctx →
      KeepR sel mv.data (g ctx mv vr o v))
    (act : ∀ ctx mv vr, G ctx → KeepR sel mv.data (m.activateClock ctx mv vr))
    (gc : ∀ ctx mv vr b, G ctx → KeepR sel mv.data (m.getClock ctx mv vr b))
    (gi : ∀ ctx mv vr i q, G ctx → KeepR sel mv.data (m.getInterval ctx mv vr i q))
    (part : ∀ ctx mv vr t, G ctx → KeepR sel mv.data (m.activateModelPartition ctx mv vr t)) :
    m.Fixed G sel := by
  intro f ctx mv mv' s hG h
  cases h with
  | «calc» e => exact hcalc _ _ hG _ e
  | get e => exact get _ _ _ _ _ _ _ hG _ e
  | set e => exact set _ _ _ _ _ _ _ hG _ e
  | event h e => exact event _ h _ _ hG _ e
  | getStates e => exact getStates _ _ _ _ hG _ e
  | nominals e => exact nominals _ _ _ _ hG _ e
  | setStates e => exact setStates _ _ _ _ hG _ e
  | deriv e => exact deriv _ _ _ _ hG _ e
  | indicators e => exact ind _ _ _ _ hG _ e
  | partialDeriv e => exact pd _ _ _ _ _ hG _ e
  | outDeriv h e => exact od _ h _ _ _ _ _ hG _ e
  | activate e => exact act _ _ _ hG _ e
  | getClock e => exact gc _ _ _ _ hG _ e
  | getInterval e => exact gi _ _ _ _ _ hG _ e
  | partition e => exact part _ _ _ _ hG _ e

/-- Prove `KeepR` of an accessor for a quantity that none of its branches changes. -/
macro "mfixed" : tactic =>
  `(tactic| repeat' (first
    | with_reducible exact KeepR.getStub
    | with_reducible exact KeepR.setStub
    | with_reducible exact KeepR.vecStub
    | with_reducible exact KeepR.partialStub
    | with_reducible exact KeepR.errStub
    | with_reducible apply KeepR.put
    | with_reducible apply KeepR.take
    | with_reducible apply KeepR.takeV
    | with_reducible apply KeepR.fail
    | with_reducible refine KeepR.notNull ?_ ?_
    | with_reducible refine KeepR.size ?_ ?_
    | with_reducible refine KeepR.nValues ?_ ?_
    | with_reducible apply KeepR.putV
    | with_reducible apply KeepR.ret
    | with_reducible exact KeepR.ub
    | (with_reducible apply KeepR.bind) <;> intro _
    | rfl
    | (intro _; rfl)
    | contradiction
    | split))

/-- A Model Exchange instance after initialisation. -/
def Running (ctx : Ctx F) : Prop :=
  ctx.typ = .modelExchange ∧ ctx.state ≠ .instantiated ∧ ctx.state ≠ .initializationMode ∧
    ctx.state ≠ .configurationMode

variable [Arith F]

theorem Dahlquist.fixed_k : (Dahlquist.model (F := F)).Fixed Running fun d => d.k := by
  apply Model.Fixed.intro
  case get =>
    intro t ctx mv vr p n i hG
    cases t <;> simp only [Dahlquist.model, Dahlquist.getFloat64] <;> mfixed
  case set =>
    intro t ctx mv vr p n i hG
    obtain ⟨h1, h2, h3, h4⟩ := hG
    cases t <;> simp only [Dahlquist.model, Dahlquist.setFloat64] <;> mfixed
    next h => simp [h1, h2, h3] at h
  case od => intro eu h; cases h
  case event => intro eu h; cases h
  all_goals
    intros
    simp only [Dahlquist.model]
    mfixed

theorem Feedthrough.fixed_param {v3 : Bool} :
    (Feedthrough.model v3 (F := F)).Fixed Running fun d => d.fixedParam := by
  apply Model.Fixed.intro
  case get =>
    intro t ctx mv vr p n i hG
    cases t <;> simp only [Feedthrough.model, Feedthrough.getFloat32, Feedthrough.getFloat64,
      Feedthrough.getInt8, Feedthrough.getUInt8, Feedthrough.getInt16, Feedthrough.getUInt16,
      Feedthrough.getInt32, Feedthrough.getUInt32, Feedthrough.getInt64, Feedthrough.getUInt64,
      Feedthrough.getBoolean, Feedthrough.getString, Feedthrough.getBinary] <;> mfixed
  case set =>
    intro t ctx mv vr p n i hG
    obtain ⟨h1, h2, h3, h4⟩ := hG
    cases t <;> simp only [Feedthrough.model, Feedthrough.setFloat32, Feedthrough.setFloat64,
      Feedthrough.setInt8, Feedthrough.setUInt8, Feedthrough.setInt16, Feedthrough.setUInt16,
      Feedthrough.setInt32, Feedthrough.setUInt32, Feedthrough.setInt64, Feedthrough.setUInt64,
      Feedthrough.setBoolean, Feedthrough.setString, Feedthrough.setBinary] <;> mfixed
    next h => simp [Feedthrough.fixedSettable, h1, h2, h3] at h
  case od => intro eu h; cases h
  case event =>
    intro eu h; cases h; intros; unfold Feedthrough.eventUpdate; mfixed
  all_goals
    intros
    simp only [Feedthrough.model]
    mfixed

end Verif

namespace Verif
variable {F D V : Type} [Arith F] [HasInf F] {m : Model F D} {sel : D → V}

theorem Model.Fixed.stepQuiet (h : m.Fixed Running sel) (v : V) :
    StepQuiet m fun c => Running c.ctx ∧ sel c.mv.data = v where
  lift hp _ e := ⟨hp.1, (h _ _ _ _ _ hp.1 e).trans hp.2⟩
  log msg hp := ⟨hp.1, by
    simp only [Comp.logError, logError]; split <;> exact hp.2⟩
  dirty _ hp := hp
  adv hp _ := hp
  iu hp _ := hp
  ncp _ hp := hp
  nx hp := hp
  nz hp := hp
  x _ hp := hp
  dx _ hp := hp
  z _ hp := hp
  prez _ hp := hp

theorem Running.to {ctx : Ctx F} (h : Running ctx) {s : Mode}
    (hs : s ∉ [Mode.instantiated, .initializationMode, .configurationMode]) :
    Running { ctx with state := s } :=
  ⟨h.1, by simp only [List.mem_cons, List.not_mem_nil, not_or] at hs; exact ⟨hs.1, hs.2.1, hs.2.2.1⟩⟩

theorem FMI2.fixed_inv (h : m.Fixed Running sel) (v : V) :
    CallInvX (fun fn => fn = .reset ∨ fn = .setFMUstate) (fun _ => True) m (fun _ => True)
      fun c => Running c.ctx ∧ sel c.mv.data = v where
  toQuiet := { h.stepQuiet v with lift := fun hp _ e => (h.stepQuiet v).lift hp trivial e }
  calls _ _ _ _ := trivial
  step _ := (h.stepQuiet v).toDo
  nx _ _ h := h
  nz _ _ h := h
  prez _ _ _ h := h
  term h := ⟨h.1.to (by simp), h.2⟩
  setup _ _ _ _ h _ := h
  enterInit _ _ h e := absurd e h.1.2.1
  reset h := absurd (.inl rfl) h
  restore h := absurd (.inr rfl) h
  enterEvent _ _ h _ := ⟨h.1.to (by simp), h.2⟩
  enterCT _ _ h _ := ⟨h.1.to (by simp), h.2⟩
  setTime _ _ _ h _ := h
  exitInit _ _ h e := absurd e h.1.2.2.1

theorem FMI3.fixed_inv (h : m.Fixed Running sel) (v : V) :
    CallInvX (fun fn => fn = .reset ∨ fn = .setFMUState) (fun _ => True) m (fun _ => True)
      fun c => Running c.ctx ∧ sel c.mv.data = v where
  toQuiet := { h.stepQuiet v with lift := fun hp _ e => (h.stepQuiet v).lift hp trivial e }
  calls _ _ _ _ := trivial
  step _ := (h.stepQuiet v).toDo
  nx _ _ h := h
  nz _ _ h := h
  prez _ _ _ h := h
  term h := ⟨h.1.to (by simp), h.2⟩
  enterInit _ _ _ _ h e := absurd e h.1.2.1
  enterConfig _ _ h e := by
    refine ⟨h.1.to ?_, h.2⟩
    rw [if_neg h.1.2.1]; simp
  exitConfig _ _ h e := by
    refine ⟨h.1.to ?_, h.2⟩
    rw [stateAfterConfig, if_neg h.1.2.2.2, h.1.1]; simp
  reset h := absurd (.inl rfl) h
  restore h := absurd (.inr rfl) h
  enterEvent _ _ h _ := ⟨h.1.to (by simp), h.2⟩
  enterCT _ _ h _ := ⟨h.1.to (by simp), h.2⟩
  setTime _ _ _ h _ := h
  exitInit _ _ h e := absurd e h.1.2.2.1
  enterStep _ _ h _ := ⟨h.1.to (by simp), h.2⟩

/-- After a successful `fmi2ExitInitializationMode` a Model Exchange instance is running. -/
theorem FMI2.exit_running (hm : OkOrError m) {w w' : World F D} (h : Reachable m .modelExchange w)
    {fuel : Nat} {o} (e : step m fuel w .exitInitializationMode = .ret (w', .OK, o)) :
    Running w'.inst.ctx := by
  have hmo := step_mode' hm _ e
  have ht := (Reachable.mode_me hm h).1
  simp only [reduceCtorEq, false_and, true_or, true_and, false_or, Op.fn] at hmo
  obtain ⟨h1, -, h3⟩ := hmo
  simp only [Spec.modeAfter, Spec.nextMode, Op.fn, ht, if_true] at h3
  exact ⟨h1.trans ht, by simp [h3], by simp [h3], by simp [h3]⟩

theorem FMI3.reachable_typ (hm : OkOrError m) {t : IType} {w : World F D} (h : Reachable m t w) :
    w.inst.ctx.typ = t := by
  have hi : HistInv m fun c => c.ctx.typ = t :=
    { lift := fun h _ _ => h
      log := fun _ h => h
      dirty := fun _ h => h
      adv := fun h _ => h
      iu := fun h _ => h
      ncp := fun _ h => h
      nx := fun h => h
      nz := fun h => h
      x := fun _ h => h
      dx := fun _ h => h
      z := fun _ h => h
      prez := fun _ h => h
      flags := fun _ _ h => h
      term := fun h => h
      enterInit := fun _ _ h _ => h
      exitInit := fun h _ => h
      enterConfig := fun h _ => h
      exitConfig := fun h _ => h
      reset := fun h => by intro x e; cases e; exact h
      restore := fun h _ => h
      enterEvent := fun h _ => h
      enterCT := fun h _ => h
      enterStep := fun h _ => h
      setTime := fun _ h _ => h }
  exact (Reachable.inv hm hi (fun _ h => h.ctx.1) h).inst

theorem FMI3.exit_running (hm : OkOrError m) {w w' : World F D} (h : Reachable m .modelExchange w)
    {fuel : Nat} {o} (e : step m fuel w .exitInitializationMode = .ret (w', .OK, o)) :
    Running w'.inst.ctx := by
  have hmo := step_mode' hm _ e
  have ht := FMI3.reachable_typ hm h
  simp only [reduceCtorEq, false_and, true_or, true_and, false_or, and_false, or_false, Op.fn] at hmo
  obtain ⟨h1, -, h3⟩ := hmo
  simp only [Spec.modeAfter, Spec.nextMode, Op.fn, ht, if_true] at h3
  exact ⟨h1.trans ht, by simp [h3], by simp [h3], by simp [h3]⟩

end Verif
