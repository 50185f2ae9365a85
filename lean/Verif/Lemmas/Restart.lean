import Verif.Lemmas.RelHist3
import Verif.Lemmas.RelRef
import Verif.Lemmas.VectorsRef
import Verif.Lemmas.Reading
import Verif.Spec.Restart

/-!
# A reset instance is equivalent to a new one

`Model.Restarts m E J`: setting the start values on a part `mv` with `J mv` gives the same, up to the equivalence `E`, as setting
them on the zeroed part from which a new instance starts.
-/

set_option linter.unusedSectionVars false

namespace Verif
variable {F D : Type} [Arith F]

/-- See the head of the file. -/
def Model.Restarts (m : Model F D) (E : MV F D → MV F D → Prop) (J : MV F D → Prop) : Prop :=
  ∀ {mv ctx ctx'}, J mv → E { m.setStartValues ctx (MV.zero m) with isDirtyValues := true }
    { m.setStartValues ctx' mv with isDirtyValues := true }

/-- The event flags have the values of a new instance. -/
def MV.Plain (mv : MV F D) : Prop := mv.flags = (false, false, false, Arith.lit 0, false)

/-- The event flags an FMU without event update does not change either. -/
def MV.Plainer (mv : MV F D) : Prop := mv.Plain ∧ mv.moreFlags = (false, false)

theorem MV.Plain.inv {m : Model F D} (he : m.Eff) (hs : ∀ ctx mv, (m.setStartValues ctx mv).flags = mv.flags)
    (hev : ∀ {eu ctx mv mv' s}, m.eventUpdate = some eu → eu ctx mv = .ret (mv', s, ()) → mv.Plain → mv'.Plain) :
    MVInv m MV.Plain where
  step {f ctx mv mv' s} h e := by
    by_cases hf : f = .event
    · subst hf
      cases e with
      | event h1 h2 => exact hev h1 h2 h
    · have h1 := he _ _ _ _ _ e
      obtain ⟨h2, -, -, h3, h4⟩ := h1.flags hf
      have h : mv.flags = _ := h
      show mv'.flags = _
      rw [← h]
      simp [MV.flags, h1.nds, h1.clk, h2, h3, h4]
  dirty _ h := h
  trace _ h := h
  start {ctx mv} h := (hs ctx mv).trans h

theorem MV.Plainer.inv {m : Model F D} (he : m.Eff) (hs : ∀ ctx mv, (m.setStartValues ctx mv).flags = mv.flags)
    (hs' : ∀ ctx mv, (m.setStartValues ctx mv).moreFlags = mv.moreFlags)
    (hev : ∀ {eu ctx mv mv' s}, m.eventUpdate = some eu → eu ctx mv = .ret (mv', s, ()) → mv' = mv) :
    MVInv m MV.Plainer where
  step {f ctx mv mv' s} h e := by
    by_cases hf : f = .event
    · subst hf
      cases e with
      | event h1 h2 => rw [hev h1 h2]; exact h
    · have h1 := he _ _ _ _ _ e
      obtain ⟨h2, h5, h6, h3, h4⟩ := h1.flags hf
      obtain ⟨h, h'⟩ := h
      have h : mv.flags = _ := h
      refine ⟨?_, ?_⟩
      · show mv'.flags = _
        rw [← h]
        simp [MV.flags, h1.nds, h1.clk, h2, h3, h4]
      · rw [← h']
        simp [MV.moreFlags, h5, h6]
  dirty _ h := h
  trace _ h := h
  start {ctx mv} h := ⟨(hs ctx mv).trans h.1, (hs' ctx mv).trans h.2⟩

/-- What is needed of an FMU whose reset instances are to be like new. -/
structure Model.Renews (m : Model F D) (E : MV F D → MV F D → Prop) (J : MV F D → Prop) (K : MV F D → Prop) : Prop where
  respects : Respects m E
  refl : ∀ mv, E mv mv
  inv : MVInv m J
  zero : J (MV.zero m)
  restarts : m.Restarts E fun mv => J mv ∧ K mv

theorem BouncingBall.renews : (BouncingBall.model (F := F)).Renews (Same BouncingBall.key) MV.Plain
    fun _ => True where
  respects := BouncingBall.respects
  refl := Same.refl _
  inv := by
    refine MV.Plain.inv (RefFMU2.eff .bouncingBall) (fun _ _ => rfl) ?_
    intro eu ctx mv mv' s hu e h
    cases hu
    simp only [BouncingBall.eventUpdate] at e
    cases e
    simp only [MV.Plain, MV.flags, Prod.mk.injEq] at h ⊢
    split <;> simp [h]
  zero := rfl
  restarts {mv ctx ctx'} h := by
    have h : mv.flags = _ := h.1
    simp only [MV.flags, Prod.mk.injEq] at h
    simp [Same, BouncingBall.key, BouncingBall.model, BouncingBall.setStartValues, MV.flags, MV.zero, h]

theorem Stair.renews : (Stair.model (F := F)).Renews (Same Stair.key)
    (fun mv => mv.newDiscreteStatesNeeded = false ∧ mv.clocksTicked = false)
    fun mv => mv.terminateSimulation = false where
  respects := Stair.respects
  refl := Same.refl _
  inv := {
    step := fun h e => by
      have := (RefFMU2.eff .stair) _ _ _ _ _ e
      exact ⟨this.nds.trans h.1, this.clk.trans h.2⟩
    dirty := fun _ h => h
    trace := fun _ h => h
    start := fun h => h }
  zero := ⟨rfl, rfl⟩
  restarts {mv ctx ctx'} h := by
    simp [Same, Stair.key, Stair.model, Stair.setStartValues, MV.flags, MV.zero, h.1, h.2]

theorem Dahlquist.renews : (Dahlquist.model (F := F)).Renews (Same Dahlquist.key) MV.Plainer
    fun _ => True where
  respects := Dahlquist.respects
  refl := Same.refl _
  inv := MV.Plainer.inv (RefFMU2.eff .dahlquist) (fun _ _ => rfl) (fun _ _ => rfl) (by rintro eu ctx mv mv' s hu; cases hu)
  zero := ⟨rfl, rfl⟩
  restarts {mv ctx ctx'} h := by
    obtain ⟨⟨h, h'⟩, -⟩ := h
    have h : mv.flags = _ := h
    simp only [MV.flags, MV.moreFlags, Prod.mk.injEq] at h h'
    simp [Same, Dahlquist.key, Dahlquist.model, Dahlquist.setStartValues, MV.flags, MV.moreFlags, MV.zero, h, h']

theorem VanDerPol.renews : (VanDerPol.model (F := F)).Renews (Same VanDerPol.key) MV.Plainer
    fun _ => True where
  respects := VanDerPol.respects
  refl := Same.refl _
  inv := MV.Plainer.inv (RefFMU2.eff .vanDerPol) (fun _ _ => rfl) (fun _ _ => rfl) (by rintro eu ctx mv mv' s hu; cases hu)
  zero := ⟨rfl, rfl⟩
  restarts {mv ctx ctx'} h := by
    obtain ⟨⟨h, h'⟩, -⟩ := h
    have h : mv.flags = _ := h
    simp only [MV.flags, MV.moreFlags, Prod.mk.injEq] at h h'
    simp [Same, VanDerPol.key, VanDerPol.model, VanDerPol.setStartValues, MV.flags, MV.moreFlags, MV.zero, h, h']

theorem Clocks.renews : (Clocks.model (F := F)).Renews (Same Clocks.key) MV.Plainer
    fun _ => True where
  respects := Clocks.respects
  refl := Same.refl _
  inv := MV.Plainer.inv (RefFMU3.eff .clocks) (fun _ _ => rfl) (fun _ _ => rfl) (by
    rintro eu ctx mv mv' s hu e; cases hu; cases e; rfl)
  zero := ⟨rfl, rfl⟩
  restarts {mv ctx ctx'} h := by
    obtain ⟨⟨h, h'⟩, -⟩ := h
    have h : mv.flags = _ := h
    simp only [MV.flags, MV.moreFlags, Prod.mk.injEq] at h h'
    simp [Same, Clocks.key, Clocks.model, Clocks.setStartValues, MV.flags, MV.moreFlags, MV.zero, h, h']

theorem Feedthrough.renews (b : Bool) : (Feedthrough.model (F := F) b).Renews (Same Feedthrough.key) MV.Plain
    fun _ => True where
  respects := Feedthrough.respects
  refl := Same.refl _
  inv := by
    refine MV.Plain.inv (by cases b; exact RefFMU2.eff .feedthrough; exact RefFMU3.eff .feedthrough) (fun _ _ => rfl) ?_
    intro eu ctx mv mv' s hu e h
    cases hu
    simp only [Feedthrough.eventUpdate] at e
    cases e
    simp only [MV.Plain, MV.flags, Prod.mk.injEq] at h ⊢
    simp [h]
  zero := rfl
  restarts {mv ctx ctx'} h := by
    have h : mv.flags = _ := h.1
    simp only [MV.flags, Prod.mk.injEq] at h
    simp [Same, Feedthrough.key, Feedthrough.model, Feedthrough.setStartValues, MV.flags, MV.zero, h]

theorem Resource.renews (b : Bool) (fs : FileSystem) : (Resource.model (F := F) b fs).Renews (Same Resource.key) MV.Plainer
    fun _ => True where
  respects := Resource.respects
  refl := Same.refl _
  inv := MV.Plainer.inv (by cases b; exact RefFMU2.eff (.resource fs); exact RefFMU3.eff (.resource fs)) (fun _ _ => rfl)
    (fun _ _ => rfl) (by rintro eu ctx mv mv' s hu; cases hu)
  zero := ⟨rfl, rfl⟩
  restarts {mv ctx ctx'} h := by
    obtain ⟨⟨h, h'⟩, -⟩ := h
    have h : mv.flags = _ := h
    simp only [MV.flags, MV.moreFlags, Prod.mk.injEq] at h h'
    simp [Same, Resource.key, Resource.model, Resource.setStartValues, MV.flags, MV.moreFlags, MV.zero, h, h']

namespace Roberts

/-- The event indicator variables are never set. -/
def NoG (mv : MV F (Data F)) : Prop := mv.data.g1 = Arith.lit 0 ∧ mv.data.g2 = Arith.lit 0

theorem KeepR.take {V α : Type} {k : Data F → V} {ctx : Ctx F} {mv : MV F (Data F)} {d : Data F} {p : Ptr α} {n i}
    {upd : α → Data F} (h : k mv.data = k d) (hu : ∀ a, k (upd a) = k d) : KeepR k d (takeScalar ctx mv p n i upd) :=
  KeepR.nValues h (KeepR.bind fun _ => KeepR.ret (hu _))

theorem KeepR.takeV {V : Type} {k : Data F → V} {ctx : Ctx F} {mv : MV F (Data F)} {d : Data F} {p : Ptr F} {n e}
    {upd : List F → Data F} (h : k mv.data = k d) (hu : ∀ a, k (upd a) = k d) : KeepR k d (takeVector ctx mv p n e upd) :=
  KeepR.notNull h (KeepR.size h (KeepR.bind fun _ => KeepR.ret (hu _)))

theorem keepsG {f ctx} {mv mv' : MV F (Data F)} {s} (e : MStep (model : Model F (Data F)) f ctx mv mv' s) :
    (mv'.data.g1, mv'.data.g2) = (mv.data.g1, mv.data.g2) := by
  by_cases hf : f ∈ MFn.reading
  · have h := Roberts.reads _ _ _ _ _ hf e
    obtain ⟨a1, a2, a3, a4, a5, a6, a7, a8, ⟨d_dae, d_y1, d_der_y1, d_y2, d_der_y2, d_y3, d_r, d_g1, d_g2⟩, a9⟩ := mv
    obtain ⟨b1, b2, b3, b4, b5, b6, b7, b8, ⟨e_dae, e_y1, e_der_y1, e_y2, e_der_y2, e_y3, e_r, e_g1, e_g2⟩, b9⟩ := mv'
    cases d_dae <;> cases e_dae <;> simp [ode, calcData] at h <;> simp [h]
  · cases e with
    | @set t vr p n i _ _ _ _ b e =>
      have : KeepR (fun d : Data F => (d.g1, d.g2)) mv.data (model.set t ctx mv vr p n i) := by
        cases t <;> simp only [model, setFloat64, setBoolean, setStub] <;>
          first | exact KeepR.fail rfl _ _ | skip
        all_goals
          refine KeepR.notNull rfl ?_
          split <;> first | exact KeepR.take rfl (fun _ => rfl) | exact KeepR.fail rfl _ _
      exact this _ e
    | event hu => cases hu
    | @setStates p n _ _ _ _ b e =>
      have : KeepR (fun d : Data F => (d.g1, d.g2)) mv.data (model.setContinuousStates ctx mv p n) :=
        KeepR.takeV rfl (fun _ => rfl)
      exact this _ e
    | _ => first | (exact absurd (by decide) hf) | (next e => cases e; first | rfl | (unfold logError; split <;> rfl))

theorem noG : MVInv (model : Model F (Data F)) NoG where
  step h e := by
    have := keepsG e
    simp only [Prod.mk.injEq] at this
    exact ⟨this.1.trans h.1, this.2.trans h.2⟩
  dirty _ h := h
  trace _ h := h
  start h := h

theorem renews : (model (F := F)).Renews (Same key) (fun mv => mv.Plainer ∧ NoG mv)
    fun _ => True where
  respects := respects
  refl := Same.refl _
  inv :=
    have h := MV.Plainer.inv (RefFMU3.eff (F := F) .roberts) (fun _ _ => rfl) (fun _ _ => rfl)
      (by rintro eu ctx mv mv' s hu; cases hu)
    { step := fun hq e => ⟨h.step hq.1 e, noG.step hq.2 e⟩
      dirty := fun _ hq => hq
      trace := fun _ hq => hq
      start := fun hq => hq }
  zero := ⟨⟨rfl, rfl⟩, rfl, rfl⟩
  restarts {mv ctx ctx'} h := by
    obtain ⟨⟨⟨h, h'⟩, hg⟩, -⟩ := h
    have h : mv.flags = _ := h
    simp only [MV.flags, MV.moreFlags, Prod.mk.injEq] at h h'
    obtain ⟨g1, g2⟩ := hg
    simp [Same, key, model, setStartValues, MV.flags, MV.moreFlags, MV.zero, h, h', g1, g2]

end Roberts

theorem StateSpace.renews [HasInf F] : (StateSpace.model (F := F)).Renews (Same StateSpace.key) (fun mv => mv.Plain ∧ InBounds mv)
    fun mv => ∀ i, mv.data.x0 i = Arith.lit 0 where
  respects := StateSpace.respects
  refl := Same.refl _
  inv :=
    have h : MVInv (StateSpace.model (F := F)) MV.Plain := by
      refine MV.Plain.inv (RefFMU3.eff .stateSpace) (fun _ _ => rfl) ?_
      intro eu ctx mv mv' s hu e h
      cases hu
      simp only [StateSpace.eventUpdate] at e
      cases e
      simp only [MV.Plain, MV.flags, Prod.mk.injEq] at h ⊢
      simp [h]
    { step := fun hq e => ⟨h.step hq.1 e, StateSpace.dims.step hq.2 e⟩
      dirty := fun _ hq => hq
      trace := fun _ hq => hq
      start := fun hq => ⟨h.start hq.1, StateSpace.dims.start hq.2⟩ }
  zero := ⟨rfl, rfl⟩
  restarts {mv ctx ctx'} h := by
    obtain ⟨⟨h, hj⟩, hx⟩ := h
    have h : mv.flags = _ := h
    simp only [MV.flags, Prod.mk.injEq] at h
    have hx : mv.data.x0 = fun _ => Arith.lit 0 := funext hx
    simp [Same, key, model, setStartValues, MV.flags, MV.zero, h, hx, dirtyOut, inBounds, maxDim]

/-! ### The runtime -/

section
variable {m : Model F D} {E : MV F D → MV F D → Prop} {J K : MV F D → Prop}

/-- What a new instance starts with. -/
structure Comp.Fresh (m : Model F D) (c : Comp F D) : Prop where
  lens : c.Lens m
  state : c.ctx.state = .instantiated
  time : c.ctx.time = Arith.lit 0
  start : c.startTime = Arith.lit 0
  steps : c.nSteps = 0
  mv : ∃ ctx, c.mv = { m.setStartValues ctx (MV.zero m) with isDirtyValues := true }

/-- What stays as it was at instantiation. -/
def Comp.Kept (c d : Comp F D) : Prop :=
  FMI2.sameConst c.ctx d.ctx ∧ d.earlyReturnAllowed = c.earlyReturnAllowed ∧ d.eventModeUsed = c.eventModeUsed

variable [HasInf F]

theorem createModelInstance_isFresh {ver3 logger iu name token resource loggingOn mem typ l} {c : Comp F D}
    (h : createModelInstance m ver3 logger iu name token resource loggingOn mem typ = (some c, l)) : c.Fresh m := by
  refine ⟨createModelInstance_lens h, (createModelInstance_ctx h).2.1, (createModelInstance_ctx h).2.2, ?_, ?_,
    ⟨_, createModelInstance_mv h⟩⟩
  all_goals
    unfold createModelInstance at h
    simp only at h
    repeat' split at h
    all_goals first | (simp at h; done) | skip
    obtain ⟨h, -⟩ := Prod.mk.inj h
    cases h
    rfl

/-- After a reset only times and configuration may differ from a new instance. -/
theorem reset_fresh (hn : m.Renews E J K) {c d d' : Comp F D} (hc : c.Fresh m) (hk : c.Kept d) (hl : d.Lens m)
    (hj : J d.mv) (hK : K d.mv) {s} (e : reset m d = .ret (d', s, ())) : CRel m E False False c d' := by
  obtain ⟨⟨h1, h2, h3, h4, h5⟩, h6, h7⟩ := hk
  simp only [reset, Comp.setState, Comp.setTime, Comp.setDirty] at e
  cases e
  refine ⟨⟨d.ctx.logErrors, d.ctx.logEvents, d.ctx.logger, ?_⟩, ?_, hc.start.symm, hc.steps.symm, h6, h7, hc.lens,
    ⟨hl.z, hl.prez, hl.x, hl.dx⟩, False.elim, False.elim, False.elim⟩
  · obtain ⟨cx, _⟩ := c
    have e1 : cx.state = _ := hc.state
    have e2 : cx.time = _ := hc.time
    simp only at h1 h2 h3 h4 h5
    rw [← e1, ← e2]
    cases cx; cases hd : d.ctx
    simp_all
  · show E c.mv _
    obtain ⟨ctx, hmv⟩ := hc.mv
    rw [hmv]
    exact hn.restarts ⟨hj, hK⟩

theorem FMI2.kept (m : Model F D) (c : Comp F D) : FMI2.HistInv m fun d => c.Kept d where
  lift h _ _ := h
  log _ h := h
  dirty _ h := h
  adv h _ := h
  iu h _ := h
  ncp _ h := h
  nx h := h
  nz h := h
  x _ h := h
  dx _ h := h
  z _ h := h
  prez _ h := h
  flags _ _ h := h
  term h := h
  setup _ _ h _ := h
  enterInit h _ := h
  exitInit h _ := h
  reset h := Outcome.all_ret.2 h
  restore h hs := ⟨h.1, hs.2⟩
  enterEvent h _ := h
  enterCT h _ := h
  setTime _ h _ := h

theorem FMI3.kept (m : Model F D) (c : Comp F D) : FMI3.HistInv m fun d => c.Kept d where
  lift h _ _ := h
  log _ h := h
  dirty _ h := h
  adv h _ := h
  iu h _ := h
  ncp _ h := h
  nx h := h
  nz h := h
  x _ h := h
  dx _ h := h
  z _ h := h
  prez _ h := h
  flags _ _ h := h
  term h := h
  enterInit _ _ h _ := h
  exitInit h _ := h
  enterConfig h _ := h
  exitConfig h _ := h
  reset h := Outcome.all_ret.2 h
  restore h hs := ⟨h.1, hs.2⟩
  enterEvent h _ := h
  enterCT h _ := h
  enterStep h _ := h
  setTime _ h _ := h

/-- Before `fmi2SetupExperiment` and in the modes that only errors lead to, the times do not matter. The configuration matters only
after the initialization. -/
def FMI2.early : Tight where
  T s := s ≠ .instantiated ∧ s ≠ .terminated ∧ s ≠ .startAndEnd
  C s := s ≠ .instantiated ∧ s ≠ .terminated ∧ s ≠ .startAndEnd ∧ s ≠ .initializationMode

/-- After `fmi2SetupExperiment` the times matter. -/
def FMI2.setUp : Tight where
  T _ := True
  C s := s ≠ .instantiated ∧ s ≠ .terminated ∧ s ≠ .startAndEnd ∧ s ≠ .initializationMode

theorem FMI2.early_ok : TightPre early := by
  constructor
  · constructor <;> simp [early]
  all_goals simp [early]

theorem FMI2.setUp_ok : TightOK setUp := by
  constructor
  · constructor
    · constructor <;> simp [setUp]
    all_goals simp [setUp]
  · simp [setUp]

/-- The times matter from the initialization on, the configuration after it. -/
def FMI3.early : Tight where
  T s := s ≠ .instantiated ∧ s ≠ .terminated ∧ s ≠ .startAndEnd ∧ s ≠ .configurationMode
  C s := s ≠ .instantiated ∧ s ≠ .terminated ∧ s ≠ .startAndEnd ∧ s ≠ .configurationMode ∧ s ≠ .initializationMode

theorem FMI3.early_ok : TightOK early := by
  constructor
  · constructor <;> simp [early]
  all_goals simp [early]

theorem FMI3.ProperCalls.along {fuel : Nat} : ∀ {ops : List (FMI3.Op F)} {w : FMI3.World F D}, FMI3.ProperCalls m fuel w ops →
    FMI3.Along m fuel (FMI3.StepFromInit FMI3.early) w ops := by
  intro ops
  induction ops with
  | nil => intro w _; trivial
  | cons op ops ih =>
    intro w h
    refine ⟨?_, fun w' s o e => ih (h.2 w' s o e)⟩
    rintro rfl hs
    exact absurd hs (h.1 rfl)

end

namespace FMI2
variable {m : Model F D} {E : MV F D → MV F D → Prop} {J K : MV F D → Prop} [HasInf F]

theorem instantiate_fresh {name t guid resource functions loggingOn mem l} {c : Comp F D}
    (h : instantiate m name t guid resource functions loggingOn mem = (some c, l)) : c.Fresh m := by
  unfold instantiate at h
  split at h
  · simp at h
  · simp at h
  · exact createModelInstance_isFresh h

theorem run_concat {fuel : Nat} {ops' : List (Op F)} : ∀ {ops : List (Op F)} {w : World F D},
    run m fuel w (ops ++ ops') = run m fuel w ops >>- fun x => run m fuel x.1 ops' >>- fun y => .ret (y.1, x.2 ++ y.2) := by
  intro ops
  induction ops with
  | nil =>
    intro w
    show run m fuel w ops' = run m fuel w ops' >>- fun y => .ret (y.1, [] ++ y.2)
    cases run m fuel w ops' <;> rfl
  | cons op ops ih =>
    intro w
    simp only [List.cons_append, run]
    cases step m fuel w op with
    | ret x =>
      obtain ⟨w1, s, o⟩ := x
      show (run m fuel w1 (ops ++ ops') >>- _) = (run m fuel w1 ops >>- _) >>- _
      rw [ih]
      cases run m fuel w1 ops with
      | ret y =>
        show (run m fuel y.1 ops' >>- _) >>- _ = (run m fuel y.1 ops' >>- _)
        cases run m fuel y.1 ops' <;> rfl
      | ub => rfl
      | hang => rfl
    | ub => rfl
    | hang => rfl

theorem slotsWritten_nil {op : Op F} (h : op.slots = []) : op.slotsWritten = [] := by
  cases op <;> first | rfl | (cases h; done)

theorem bufsWritten_nil {op : Op F} (h : op.bufs = []) : op.bufsWritten = [] := by
  cases op <;> first | rfl | (cases h; done)

theorem restart (hm : OkOrError m) (hn : m.Renews E J K) {name t guid resource functions loggingOn mem l} {c : Comp F D}
    (hc : instantiate m name t guid resource functions loggingOn mem = (some c, l)) {w₀ w w' : World F D}
    (hi : w₀.Initial c) {fuel fuel₁ fuel' : Nat} {before : List (Op F)} {outs}
    (h : run m fuel w₀ before = .ret (w, outs)) (hK : K w.inst.mv) {o}
    (e : step m fuel₁ w .reset = .ret (w', .OK, o)) {pre rest : List (Op F)} (hpre : ∀ op ∈ pre, BeforeSetup op) {a d b}
    {w₁ w₂ : World F D} {outs₁ o₂} (e₁ : run m fuel' w₀ pre = .ret (w₁, outs₁))
    (e₂ : step m fuel' w₁ (.setupExperiment a d b) = .ret (w₂, .OK, o₂)) (hsep : Separate before rest) :
    (run m fuel' w' (pre ++ .setupExperiment a d b :: rest)).shown =
      (run m fuel' w₀ (pre ++ .setupExperiment a d b :: rest)).shown := by
  have hw : Reachable m t w := ⟨_, _, _, _, _, _, c, _, w₀, fuel, before, outs, hc, hi, h⟩
  have hj := (hw.mv hm hn.inv hn.zero).inst
  have hl := (hw.self hn.respects hn.refl).inst.lens
  have hk : c.Kept w.inst := (run_inv hm (kept m c) before (WInv.initial hi ⟨⟨rfl, rfl, rfl, rfl, rfl⟩, rfl, rfl⟩) _ h).inst
  have hf := run_frame h
  have hf' := step_frame e
  have h0 : CRel m E False False w₀.inst w'.inst := by
    simp only [step, World.run, FMI2.reset, FMI2.begin, beginFunction] at e
    obtain ⟨⟨c1, s1, o1⟩, e, e'⟩ := Outcome.bind_eq_ret.1 e
    simp only [Outcome.ret.injEq, Prod.mk.injEq] at e'
    obtain ⟨rfl, rfl, -⟩ := e'
    rw [hi.inst]
    split at e
    · simp only [callLast] at e
      obtain ⟨⟨c2, s2, o2⟩, e1, e⟩ := Outcome.bind_eq_ret.1 e
      have := reset_fresh hn (instantiate_fresh hc) hk hl hj hK e1
      simp only [Verif.reset] at e1
      cases e1
      cases e
      exact this
    · cases e
  have hst : w₀.inst.ctx.state = .instantiated := by rw [hi.inst]; exact (instantiate_fresh hc).state
  have h1 : WRel (SRel m E early) (fun _ => False) (fun _ => False) w₀ w' :=
    ⟨h0.mono (fun h => h.1 hst) (fun h => h.1 hst), fun _ => False.elim, fun _ => False.elim⟩
  have h2 := run_rel' (fuel := fuel') hn.respects early_ok pre h1 (fun op hop => by simp [(hpre op hop).2]) fun op hop he =>
    absurd (by rw [he]; rfl) (hpre op hop).1
  rw [e₁] at h2
  obtain ⟨⟨w₁', outs₁'⟩, e₁', h2, h3⟩ : ∃ x, run m fuel' w' pre = .ret x ∧
      WRel (SRel m E early) (fun _ => False) (fun _ => False) w₁ x.1 ∧ outs₁ = x.2 := by
    cases hx : run m fuel' w' pre with
    | ret x => rw [hx] at h2; exact ⟨x, rfl, h2⟩
    | ub => rw [hx] at h2; exact h2.elim
    | hang => rw [hx] at h2; exact h2.elim
  simp only at h2 h3
  subst h3
  have g := run_frame e₁
  have g' := run_frame e₁'
  have hs1 : w₁.inst.ctx.state = .instantiated ∧ o₂ = .unit ∧ w₂ = { w₁ with inst := { w₁.inst.setTime a with
      startTime := a, stopTime := if d then b else HasInf.inf, nextCommunicationPoint := a } } := by
    simp only [step, World.run, setupExperiment, FMI2.begin, beginFunction] at e₂
    split at e₂
    · next ha =>
      cases e₂
      exact ⟨(allowed_inst _).1 ha, rfl, rfl⟩
    · cases e₂
  obtain ⟨hs1, rfl, ew₂⟩ := hs1
  have h4 := h2.inst
  have hs2 : w₁'.inst.ctx.state = .instantiated := h4.state.trans hs1
  have e₂' : step m fuel' w₁' (.setupExperiment a d b) = .ret ({ w₁' with inst := { w₁'.inst.setTime a with
      startTime := a, stopTime := if d then b else HasInf.inf, nextCommunicationPoint := a } }, .OK, .unit) := by
    simp only [step, World.run, setupExperiment, FMI2.begin, beginFunction]
    have ha : allowed w₁'.inst.ctx MASK_SetupExperiment = true := (allowed_inst _).2 hs2
    rw [if_pos ha]
    rfl
  have h5 : CRel m E False False w₁.inst w₁'.inst := h4.mono False.elim False.elim
  have h6 := CRel.setTime h5 a
  rw [run_concat, run_concat, e₁, e₁']
  show ((run m fuel' w₁' (_ :: rest)) >>- _).shown = ((run m fuel' w₁ (_ :: rest)) >>- _).shown
  rw [run, run, e₂, e₂']
  show ((run m fuel' _ rest >>- _) >>- _).shown = ((run m fuel' _ rest >>- _) >>- _).shown
  have h7 := shown_of_rel (run_rel (fuel := fuel') (τ := setUp) hn.respects setUp_ok rest
    (A := fun i => ∀ op ∈ before, i ∉ op.slotsWritten) (B := fun i => ∀ op ∈ before, i ∉ op.bufsWritten) (w := w₂)
    (w' := { w₁' with inst := { w₁'.inst.setTime a with
      startTime := a, stopTime := if d then b else HasInf.inf, nextCommunicationPoint := a } })
    ⟨?_, ?_, ?_⟩ fun op hop => ⟨fun i hi op' hop' hi' => (hsep op' hop' op hop).1 i hi' hi,
      fun i hi op' hop' hi' => (hsep op' hop' op hop).2 i hi' hi⟩)
  · revert h7
    generalize run m fuel' w₂ rest = r
    generalize run m fuel' _ rest = r'
    intro h7
    cases r <;> cases r' <;> simp_all [Outcome.shown] <;> first | cases h7 | rfl | skip
  · subst ew₂
    exact ⟨h6.ctx, h6.mv, rfl, h6.steps, h6.early, h6.evm, ⟨h6.lens.z, h6.lens.prez, h6.lens.x, h6.lens.dx⟩,
      ⟨h6.lens'.z, h6.lens'.prez, h6.lens'.x, h6.lens'.dx⟩, fun _ => ⟨rfl, rfl⟩, fun h => absurd hs1 h.1, fun h => absurd hs1 h.1⟩
  · intro i hA
    subst ew₂
    have k1 : w₁.slots i = none := by
      rw [g.1 i fun op hop => by rw [slotsWritten_nil (hpre op hop).2.1]; simp]; exact hi.slots i
    have k2 : w₁'.slots i = none := by
      rw [g'.1 i fun op hop => by rw [slotsWritten_nil (hpre op hop).2.1]; simp, hf'.1 i (by simp [Op.slotsWritten]), hf.1 i hA]
      exact hi.slots i
    show OptRel _ (w₁.slots i) (w₁'.slots i)
    rw [k1, k2]; trivial
  · intro i hB
    subst ew₂
    have k1 : w₁.bufs i = w₀.bufs i := g.2 i fun op hop => by rw [bufsWritten_nil (hpre op hop).2.2]; simp
    have k2 : w₁'.bufs i = w₀.bufs i := by
      rw [g'.2 i fun op hop => by rw [bufsWritten_nil (hpre op hop).2.2]; simp, hf'.2 i (by simp [Op.bufsWritten]), hf.2 i hB]
    show OptRel _ (w₁.bufs i) (w₁'.bufs i)
    rw [k1, k2]
    refine .self fun b hb => ⟨rfl, .self fun s hs => ?_⟩
    rw [hi.bufs i b hb] at hs; cases hs

end FMI2

namespace FMI3
variable {m : Model F D} {E : MV F D → MV F D → Prop} {J K : MV F D → Prop} [HasInf F]

theorem New.fresh {t : IType} {c : Comp F D} (h : New m t c) : c.Fresh m := by
  have hl := h.lens
  obtain ⟨_, _, _, _, _, _, _, c₀, _, _, _, _, _, _, hcr, rfl⟩ := h.created
  have h0 := createModelInstance_isFresh hcr
  exact ⟨hl, h0.state, h0.time, h0.start, h0.steps, h0.mv⟩

theorem restart (hm : OkOrError m) (hn : m.Renews E J K) {t : IType} {c : Comp F D} (hc : New m t c) {w₀ w w' : World F D}
    (hi : w₀.Initial c) {fuel fuel₁ fuel' : Nat} {before : List (Op F)} {outs}
    (h : run m fuel w₀ before = .ret (w, outs)) (hK : K w.inst.mv) {o}
    (e : step m fuel₁ w .reset = .ret (w', .OK, o)) {later : List (Op F)} (hp : ProperCalls m fuel' w₀ later)
    (hsep : Separate before later) :
    (run m fuel' w' later).shown = (run m fuel' w₀ later).shown := by
  have hw : Reachable m t w := ⟨c, w₀, fuel, before, outs, hc, hi, h⟩
  have hj := (hw.mv hm hn.inv hn.zero).inst
  have hl := (hw.self hn.respects hn.refl).inst.lens
  have hk : c.Kept w.inst := (run_inv hm (kept m c) before (WInv.initial hi ⟨⟨rfl, rfl, rfl, rfl, rfl⟩, rfl, rfl⟩) _ h).inst
  have hf := run_frame h
  have hf' := step_frame e
  have h0 : CRel m E False False w₀.inst w'.inst := by
    simp only [step, World.run, FMI3.reset, FMI3.begin, beginFunction] at e
    obtain ⟨⟨c1, s1, o1⟩, e, e'⟩ := Outcome.bind_eq_ret.1 e
    simp only [Outcome.ret.injEq, Prod.mk.injEq] at e'
    obtain ⟨rfl, rfl, -⟩ := e'
    rw [hi.inst]
    split at e
    · simp only [callLast] at e
      obtain ⟨⟨c2, s2, o2⟩, e1, e⟩ := Outcome.bind_eq_ret.1 e
      have := reset_fresh hn hc.fresh hk hl hj hK e1
      simp only [Verif.reset] at e1
      cases e1
      cases e
      exact this
    · cases e
  have hst : w₀.inst.ctx.state = .instantiated := by rw [hi.inst]; exact hc.fresh.state
  refine (shown_of_rel (run_rel' (fuel := fuel') (τ := early) hn.respects early_ok later
    (A := fun i => ∀ op ∈ before, i ∉ op.slotsWritten) (B := fun i => ∀ op ∈ before, i ∉ op.bufsWritten)
    ⟨h0.mono (fun h => h.1 hst) (fun h => h.1 hst), ?_, ?_⟩ (fun op hop =>
      ⟨fun i hi op' hop' hi' => (hsep op' hop' op hop).1 i hi' hi,
      fun i hi op' hop' hi' => (hsep op' hop' op hop).2 i hi' hi⟩) hp.along)).symm
  · intro i hA
    have k2 : w'.slots i = w₀.slots i := by
      rw [hf'.1 i (by simp [Op.slotsWritten]), hf.1 i hA]
    rw [k2, hi.slots i]; trivial
  · intro i hB
    have k2 : w'.bufs i = w₀.bufs i := by
      rw [hf'.2 i (by simp [Op.bufsWritten]), hf.2 i hB]
    rw [k2]
    refine .self fun b hb => ⟨rfl, .self fun s hs => ?_⟩
    rw [hi.bufs i b hb] at hs; cases hs

end FMI3

end Verif
