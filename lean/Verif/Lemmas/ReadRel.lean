import Verif.Lemmas.Reading
import Verif.Lemmas.RelRef
import Verif.Lemmas.RelHist3
import Verif.Lemmas.VectorsRef
import Verif.Spec.Reading

/-!
# A read leaves an equivalent instance

`Model.Passes m J E`: the functions of `model.c` behind getters, and the dirty flag, do not leave the
equivalence class of the instance.
-/

set_option linter.unusedSectionVars false

namespace Verif
variable {F D : Type}

/-- Reading functions and the dirty flag do not leave the equivalence class. -/
structure Model.Passes (m : Model F D) (J : MV F D → Prop) (E : MV F D → MV F D → Prop) : Prop where
  trans : ∀ {a b c}, E a b → E b c → E a c
  keepJ : ∀ {a b}, E a b → J a → J b
  dirty : ∀ {mv} b, J mv → E mv { mv with isDirtyValues := b }
  read : ∀ {f ctx mv mv' s}, f ∈ MFn.reading → MStep m f ctx mv mv' s → J mv → E mv mv'

/-- The functions that only read keep `k` of the data. -/
def Model.ReadsKey {V : Type} (m : Model F D) (k : D → V) : Prop :=
  ∀ f ctx mv mv' s, f ∈ MFn.reading → MStep m f ctx mv mv' s → k mv'.data = k mv.data

theorem Model.ReadsKey.intro {V : Type} {m : Model F D} {k : D → V}
    (hcalc : ∀ ctx mv, KeepR k mv.data (m.calculateValues ctx mv))
    (get : ∀ t ctx mv vr p n i, KeepR k mv.data (m.get t ctx mv vr p n i))
    (getStates : ∀ ctx mv p n, KeepR k mv.data (m.getContinuousStates ctx mv p n))
    (nominals : ∀ ctx mv p n, KeepR k mv.data (m.getNominals ctx mv p n))
    (deriv : ∀ ctx mv p n, KeepR k mv.data (m.getDerivatives ctx mv p n))
    (ind : ∀ ctx mv p n, KeepR k mv.data (m.getEventIndicators ctx mv p n))
    (pd : ∀ ctx mv u l o, KeepR k mv.data (m.getPartialDerivative ctx mv u l o))
    (od : ∀ g, m.getOutputDerivative = some g → ∀ ctx mv vr o v, KeepR k mv.data (g ctx mv vr o v)) :
    m.ReadsKey k := by
  intro f ctx mv mv' s hf h
  cases h with
  | «calc» e => exact hcalc _ _ _ e
  | get e => exact get _ _ _ _ _ _ _ _ e
  | getStates e => exact getStates _ _ _ _ _ e
  | nominals e => exact nominals _ _ _ _ _ e
  | deriv e => exact deriv _ _ _ _ _ e
  | indicators e => exact ind _ _ _ _ _ e
  | partialDeriv e => exact pd _ _ _ _ _ _ e
  | outDeriv h e => exact od _ h _ _ _ _ _ _ e
  | _ => exact absurd hf (by decide)

/-- Keys made of the flags and a part of the data. -/
theorem Model.Passes.ofKey {V K : Type} {m : Model F D} {k : D → V} {key : MV F D → K} (he : m.Eff)
    (hk : m.ReadsKey k)
    (h : ∀ mv mv' : MV F D, k mv'.data = k mv.data → mv'.flags = mv.flags →
      mv'.moreFlags = mv.moreFlags → key mv = key mv') :
    m.Passes (fun _ => True) (Same key) where
  trans := Same.trans
  keepJ _ _ := trivial
  dirty _ _ := h _ _ rfl rfl rfl
  read {f ctx mv mv' s} hf e _ := by
    have := he _ _ _ _ _ e
    obtain ⟨h1, h2, h3, h4, h5⟩ := this.flags (by rintro rfl; exact absurd hf (by decide))
    refine h _ _ (hk _ _ _ _ _ hf e) ?_ ?_
    · simp [MV.flags, h1, h4, h5, this.nds, this.clk]
    · simp [MV.moreFlags, h2, h3]

variable [Arith F]

theorem BouncingBall.passes : (BouncingBall.model (F := F)).Passes (fun _ => True) (Same BouncingBall.key) := by
  refine .ofKey (RefFMU2.eff .bouncingBall) (k := fun d => d) BouncingBall.reads ?_
  rintro mv mv' h1 h2 h3
  simp [key, h1, h2]

theorem Stair.passes : (Stair.model (F := F)).Passes (fun _ => True) (Same Stair.key) := by
  refine .ofKey (RefFMU2.eff .stair) (k := fun d => d) Stair.reads ?_
  rintro mv mv' h1 h2 h3
  simp [key, h1, h2]

theorem Dahlquist.passes : (Dahlquist.model (F := F)).Passes (fun _ => True) (Same Dahlquist.key) := by
  refine .ofKey (RefFMU2.eff .dahlquist) (k := Dahlquist.ode.calc') Dahlquist.reads ?_
  rintro mv mv' h1 h2 h3
  simp only [ode, Data.mk.injEq] at h1
  simp [key, h1, h2, h3]

theorem VanDerPol.passes : (VanDerPol.model (F := F)).Passes (fun _ => True) (Same VanDerPol.key) := by
  refine .ofKey (RefFMU2.eff .vanDerPol) (k := VanDerPol.ode.calc') VanDerPol.reads ?_
  rintro mv mv' h1 h2 h3
  simp only [ode, Data.mk.injEq] at h1
  simp [key, h1, h2, h3]

theorem Clocks.passes : (Clocks.model (F := F)).Passes (fun _ => True) (Same Clocks.key) := by
  refine .ofKey (RefFMU3.eff .clocks) (k := fun d => d) ?_ ?_
  · apply Model.ReadsKey.intro
    case get =>
      intro t ctx mv vr p n i
      cases t <;> simp only [model, getFloat64, getInt32] <;> mkeep (fun _ => rfl)
    case od => intro eu h; cases h
    all_goals
      intros
      simp only [model]
      mkeep (fun _ => rfl)
  · rintro mv mv' h1 h2 h3
    simp [key, h1, h2, h3]

/-- The inputs and parameters of Feedthrough. -/
def Feedthrough.ins (d : Data F) :=
  (d.f32ContIn, d.f32DiscIn, d.fixedParam, d.tunableParam, d.f64ContIn, d.f64DiscIn, d.int8In, d.uint8In, d.int16In, d.uint16In, d.int32In, d.uint32In, d.int64In, d.uint64In, d.boolIn, d.strIn, d.binIn, d.enumIn)

theorem Feedthrough.passes (b : Bool) : (Feedthrough.model (F := F) b).Passes (fun _ => True) (Same Feedthrough.key) := by
  refine .ofKey (k := ins) ?_ ?_ ?_
  · cases b
    · exact RefFMU2.eff .feedthrough
    · exact RefFMU3.eff .feedthrough
  · apply Model.ReadsKey.intro
    case get =>
      intro t ctx mv vr p n i
      cases t <;> cases b <;> simp only [model, getFloat64, getFloat32, getInt8, getUInt8, getInt16, getUInt16, getInt32,
        getUInt32, getInt64, getUInt64, getBoolean, getString, getBinary] <;> mkeep (fun _ => rfl)
    case od => intro eu h; cases h
    all_goals
      intros
      simp only [model]
      mkeep (fun _ => rfl)
  · rintro mv mv' h1 h2 h3
    simp only [ins, Prod.mk.injEq] at h1
    simp [key, h1, h2]

namespace StateSpace

/-- Everything but the derivatives and outputs. -/
def ins (d : Data F) := (d.m, d.n, d.r, d.A, d.B, d.C, d.D, d.x0, d.u, d.x)

theorem KeepR.guarded {β : Type} {d d' : Data F} {k : MRes F (Data F) β} (h : KeepR ins d k) :
    KeepR ins d (guarded d' k) := by
  unfold StateSpace.guarded
  split
  · exact h
  · exact KeepR.ub

theorem KeepR.calc {β : Type} {mv : MV F (Data F)} {k : MV F (Data F) → MRes F (Data F) β}
    (h : KeepR ins mv.data (k (calcValues mv))) : KeepR ins mv.data (calculateValues mv >>- k) := by
  unfold calculateValues StateSpace.guarded
  split
  · exact h
  · exact KeepR.ub

theorem KeepR.putBlock {ctx : Ctx F} {mv : MV F (Data F)} {d : Data F} {p n i l} (h : ins mv.data = ins d) :
    KeepR ins d (putBlock ctx mv p n i l) :=
  KeepR.nValues h (KeepR.bind fun _ => KeepR.ret h)

theorem KeepR.checkNx {ctx : Ctx F} {mv : MV F (Data F)} {d : Data F} {p n k} (h : ins mv.data = ins d) (hk : KeepR ins d k) :
    KeepR ins d (checkNx ctx mv p n k) := by
  unfold StateSpace.checkNx
  split
  · exact KeepR.fail h _ _
  · exact hk

theorem reads : (model (F := F)).ReadsKey ins := by
  apply Model.ReadsKey.intro
  case get =>
    intro t ctx mv vr p n i
    cases t
    case float64 =>
      simp only [model, getFloat64]
      refine KeepR.notNull rfl (KeepR.calc ?_)
      split <;> first
        | exact KeepR.put rfl
        | exact KeepR.putBlock rfl
        | exact KeepR.fail rfl _ _
    all_goals simp only [model, getUInt64]; mkeep (fun _ => rfl)
  case od => intro eu h; cases h
  case getStates =>
    intro ctx mv p n
    simp only [model]
    exact KeepR.notNull rfl (KeepR.checkNx rfl (KeepR.guarded (KeepR.bind fun _ => KeepR.ret rfl)))
  case nominals =>
    intro ctx mv p n
    simp only [model]
    exact KeepR.notNull rfl (KeepR.checkNx rfl (KeepR.bind fun _ => KeepR.ret rfl))
  case deriv =>
    intro ctx mv p n
    simp only [model]
    exact KeepR.notNull rfl (KeepR.checkNx rfl (KeepR.calc (KeepR.bind fun _ => KeepR.ret rfl)))
  case hcalc =>
    intro ctx mv
    simp only [model]
    exact KeepR.calc (KeepR.ret rfl)
  all_goals
    intros
    simp only [model]
    mkeep (fun _ => rfl)

theorem same_of {mv mv' : MV F (Data F)} (hj : InBounds mv) (h1 : ins mv'.data = ins mv.data) (h2 : mv'.flags = mv.flags) :
    Same key mv mv' := by
  simp only [ins, Prod.mk.injEq] at h1
  have hj : inBounds mv.data = true := hj
  have hj' : inBounds mv'.data = true := by simpa [inBounds, h1] using hj
  have e1 : dirtyOut mv = none := by simp [dirtyOut, hj]
  have e2 : dirtyOut mv' = none := by simp [dirtyOut, hj']
  simp [Same, key, h1, h2, e1, e2]

theorem passes : (model (F := F)).Passes InBounds (Same key) where
  trans := Same.trans
  keepJ {a b} h hj := by
    have hj : inBounds a.data = true := hj
    show inBounds b.data = true
    rw [(eqs h).bounds]; exact hj
  dirty _ hj := same_of hj rfl rfl
  read {f ctx mv mv' s} hf e hj := by
    have := (RefFMU3.eff .stateSpace) _ _ _ _ _ e
    obtain ⟨h1, h2, h3, h4, h5⟩ := this.flags (by rintro rfl; exact absurd hf (by decide))
    exact same_of hj (reads _ _ _ _ _ hf e) (by simp [MV.flags, h1, h4, h5, this.nds, this.clk])

end StateSpace

/-! ### The runtime -/

section
variable {m : Model F D} {J : MV F D → Prop} {E : MV F D → MV F D → Prop} {c₀ : Comp F D}

/-- Equivalent to the instance `c₀`. -/
theorem Model.Passes.quiet (hr : TraceFree E) (hp : m.Passes J E) :
    Quiet m (fun f => f ∈ MFn.reading) fun c => J c.mv ∧ SRel m E Tight.full c₀ c where
  lift {c f mv' s} h hf e :=
    have h1 := hp.read hf e h.1
    ⟨hp.keepJ h1 h.1, SRel.upd (c := c₀) h.2 (hp.trans (CRel.mv h.2) h1)⟩
  log {c} msg h := by
    have h1 : E c.mv (logError c.ctx c.mv msg) := by
      have h2 := hp.trans (hp.dirty c.mv.isDirtyValues h.1) (hp.dirty c.mv.isDirtyValues h.1)
      unfold logError
      split
      · exact hr _ _ _ _ h2
      · exact h2
    exact ⟨hp.keepJ h1 h.1, SRel.upd (c := c₀) h.2 (hp.trans (CRel.mv h.2) h1)⟩
  dirty {c} b h :=
    have h1 := hp.dirty b h.1
    ⟨hp.keepJ h1 h.1, SRel.upd (c := c₀) h.2 (hp.trans (CRel.mv h.2) h1)⟩

variable [HasInf F]

/-- A successful read leads to an equivalent world. -/
theorem FMI2.read_rel (hm : OkOrError m) (hr : TraceFree E) (hp : m.Passes J E) {w w' : FMI2.World F D} {fuel : Nat}
    {op : FMI2.Op F} {o} (hj : J w.inst.mv)
    (hw : FMI2.WRel (SRel m E Tight.full) (fun _ => True) (fun _ => True) w w)
    (ho : FMI2.Spec.asks op.fn = true) (e : FMI2.step m fuel w op = .ret (w', .OK, o)) :
    FMI2.WRel (SRel m E Tight.full) (fun _ => True) (fun _ => True) w w' := by
  have h1 := FMI2.step_quietT hm (hp.quiet hr (c₀ := w.inst)) (fuel := fuel) (w := w) (op := op)
    (fun h => by rw [h] at ho; cases ho) ⟨hj, hw.inst⟩
    (by generalize op.fn = fn at ho; cases fn <;> first | (cases ho; done) | decide)
    (by cases op <;> first | rfl | (cases ho; done))
    (by intro h; rw [h] at ho; cases ho) _ e
  obtain ⟨-, h2⟩ : _ ∧ (J w'.inst.mv ∧ SRel m E Tight.full w.inst w'.inst) := by
    rcases h1 with h | h
    · exact h
    · cases h.1
  have hf := FMI2.step_frame e
  have hs : op.slotsWritten = [] := by cases op <;> first | rfl | (cases ho; done)
  have hb : op.bufsWritten = [] := by cases op <;> first | rfl | (cases ho; done)
  refine ⟨h2.2, fun i hi => ?_, fun i hi => ?_⟩
  · rw [hf.1 i (by simp [hs])]; exact hw.slots i hi
  · rw [hf.2 i (by simp [hb])]; exact hw.bufs i hi

theorem FMI3.read_rel (hm : OkOrError m) (hr : TraceFree E) (hp : m.Passes J E) {w w' : FMI3.World F D} {fuel : Nat}
    {op : FMI3.Op F} {o} (hj : J w.inst.mv)
    (hw : FMI3.WRel (SRel m E Tight.full) (fun _ => True) (fun _ => True) w w)
    (ho : FMI3.Spec.asks op.fn = true) (e : FMI3.step m fuel w op = .ret (w', .OK, o)) :
    FMI3.WRel (SRel m E Tight.full) (fun _ => True) (fun _ => True) w w' := by
  have hu : op.unsupported m = false := by
    cases op <;> first | rfl | (cases ho; done) | skip
    simp only [FMI3.Op.unsupported]
    cases h : m.getOutputDerivative with
    | some => rfl
    | none =>
      simp only [FMI3.step, FMI3.World.run, FMI3.getOutputDerivatives] at e
      simp only [h, FMI3.notImplemented, FMI3.begin, beginFunction] at e
      split at e <;> simp at e
  have h1 := FMI3.step_quietT hm (hp.quiet hr (c₀ := w.inst)) (fuel := fuel) (w := w) (op := op)
    (fun h => by rw [h] at ho; cases ho) ⟨hj, hw.inst⟩
    (by generalize op.fn = fn at ho; cases fn <;> first | (cases ho; done) | decide | simp [FMI3.Fn.calls, MFn.reading])
    (by cases op <;> first | rfl | (cases ho; done))
    (by intro h; rw [h] at ho; cases ho) hu _ e
  obtain ⟨-, h2⟩ : _ ∧ (J w'.inst.mv ∧ SRel m E Tight.full w.inst w'.inst) := by
    rcases h1 with h | h
    · exact h
    · cases h.1
  have hf := FMI3.step_frame e
  have hs : op.slotsWritten = [] := by cases op <;> first | rfl | (cases ho; done)
  have hb : op.bufsWritten = [] := by cases op <;> first | rfl | (cases ho; done)
  refine ⟨h2.2, fun i hi => ?_, fun i hi => ?_⟩
  · rw [hf.1 i (by simp [hs])]; exact hw.slots i hi
  · rw [hf.2 i (by simp [hb])]; exact hw.bufs i hi

/-- Nothing later shows that a successful read happened. -/
theorem FMI2.read_shown (hm : OkOrError m) (hr : Respects m E) (hE : ∀ mv, E mv mv) (hp : m.Passes J E) {t : IType}
    {w w' : FMI2.World F D} {fuel : Nat} {op : FMI2.Op F} {o} (hw : FMI2.Reachable m t w) (hj : J w.inst.mv)
    (ho : FMI2.Spec.asks op.fn = true) (e : FMI2.step m fuel w op = .ret (w', .OK, o)) (fuel' : Nat) (later : List (FMI2.Op F)) :
    (FMI2.run m fuel' w' later).shown = (FMI2.run m fuel' w later).shown :=
  (shown_of_rel (FMI2.run_rel hr .full later (FMI2.read_rel hm hr.trace hp hj (hw.self hr hE) ho e)
    fun _ _ => ⟨fun _ _ => trivial, fun _ _ => trivial⟩)).symm

theorem FMI3.read_shown (hm : OkOrError m) (hr : Respects m E) (hE : ∀ mv, E mv mv) (hp : m.Passes J E) {t : IType}
    {w w' : FMI3.World F D} {fuel : Nat} {op : FMI3.Op F} {o} (hw : FMI3.Reachable m t w) (hj : J w.inst.mv)
    (ho : FMI3.Spec.asks op.fn = true) (e : FMI3.step m fuel w op = .ret (w', .OK, o)) (fuel' : Nat) (later : List (FMI3.Op F)) :
    (FMI3.run m fuel' w' later).shown = (FMI3.run m fuel' w later).shown :=
  (shown_of_rel (FMI3.run_rel hr later (FMI3.read_rel hm hr.trace hp hj (hw.self hr hE) ho e)
    fun _ _ => ⟨fun _ _ => trivial, fun _ _ => trivial⟩)).symm

end

end Verif
