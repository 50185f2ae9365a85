import Verif.Lemmas.Hoare
import Verif.RefFMUs

/-!
# What a `model.c` function may do to the instance

`MEff f ctx mv mv' s` collects facts that hold for every call of every function of every
Reference FMU. `RefFMU2.eff`, `RefFMU3.eff` prove it.
-/

namespace Verif
variable {F D : Type}

/-- Callback invocations a `model.c` function may make. -/
def EvOK (f : MFn) (ctx : Ctx F) : Ev F → Prop
  | .log s cat _ => s = .Error ∧ cat = "logStatusError" ∧ ctx.logErrors = true ∧ ctx.logger = true
  | .clockUpdate => ctx.clockUpdate = true ∧ f = .partition
  | .lock => ctx.lockPreemption = true ∧ f = .partition
  | .unlock => ctx.unlockPreemption = true ∧ f = .partition
  | .intermediateUpdate _ => False

/-- Effect of a `model.c` function apart from `data` and the dirty flag. -/
structure MEff (f : MFn) (ctx : Ctx F) (mv mv' : MV F D) (s : Status) : Prop where
  status : s = .OK ∨ s = .Error
  nds : mv'.newDiscreteStatesNeeded = mv.newDiscreteStatesNeeded
  clk : mv'.clocksTicked = mv.clocksTicked
  trace : ∃ l, mv'.trace = mv.trace ++ l ∧ ∀ e ∈ l, EvOK f ctx e
  flags : f ≠ .event → mv'.terminateSimulation = mv.terminateSimulation ∧
    mv'.nominalsChanged = mv.nominalsChanged ∧ mv'.valuesChanged = mv.valuesChanged ∧
    mv'.nextEventTimeDefined = mv.nextEventTimeDefined ∧ mv'.nextEventTime = mv.nextEventTime

/-- Every function of the FMU has the effect `MEff`. -/
def Model.Eff (m : Model F D) : Prop :=
  ∀ f ctx mv mv' s, MStep m f ctx mv mv' s → MEff f ctx mv mv' s

theorem Model.Eff.okOrError {m : Model F D} (h : m.Eff) : OkOrError m :=
  fun f ctx mv mv' s hs => (h f ctx mv mv' s hs).status

/-- `r` has the effect `MEff f`, starting from `mv`. -/
def EffR {β : Type} (f : MFn) (ctx : Ctx F) (mv : MV F D) (r : MRes F D β) : Prop :=
  r.All fun x => MEff f ctx mv x.1 x.2.1

section
variable {f : MFn} {ctx : Ctx F} {mv0 mv : MV F D}

theorem EffR.of_eq {β : Type} {r : MRes F D β} {mv' : MV F D} {s : Status} {b : β}
    (h : EffR f ctx mv r) (e : r = .ret (mv', s, b)) : MEff f ctx mv mv' s := h _ e

theorem MEff.same {s : Status} (hs : s = .OK ∨ s = .Error)
    (h1 : mv.newDiscreteStatesNeeded = mv0.newDiscreteStatesNeeded)
    (h2 : mv.clocksTicked = mv0.clocksTicked) (h3 : mv.trace = mv0.trace)
    (h4 : mv.terminateSimulation = mv0.terminateSimulation)
    (h5 : mv.nominalsChanged = mv0.nominalsChanged) (h6 : mv.valuesChanged = mv0.valuesChanged)
    (h7 : mv.nextEventTimeDefined = mv0.nextEventTimeDefined)
    (h8 : mv.nextEventTime = mv0.nextEventTime) : MEff f ctx mv0 mv s :=
  ⟨hs, h1, h2, ⟨[], by simp [h3]⟩, fun _ => ⟨h4, h5, h6, h7, h8⟩⟩

theorem MEff.refl : MEff f ctx mv mv .OK :=
  MEff.same (.inl rfl) rfl rfl rfl rfl rfl rfl rfl rfl

theorem MEff.log {s : Status} (h : MEff f ctx mv0 mv s) (msg : String) :
    MEff f ctx mv0 (logError ctx mv msg) .Error := by
  unfold logError
  split
  · next hl =>
    obtain ⟨l, hl1, hl2⟩ := h.trace
    simp only [Bool.and_eq_true] at hl
    refine ⟨.inr rfl, h.nds, h.clk, ⟨l ++ [.log .Error "logStatusError" msg], by simp [hl1], ?_⟩,
      h.flags⟩
    intro e he
    rcases List.mem_append.1 he with he | he
    · exact hl2 e he
    · simp only [List.mem_singleton] at he; subst he; exact ⟨rfl, rfl, hl.1, hl.2⟩
  · exact ⟨.inr rfl, h.nds, h.clk, h.trace, h.flags⟩

theorem MEff.emit {s : Status} (h : MEff f ctx mv0 mv s) {e : Ev F} (he : EvOK f ctx e) :
    MEff f ctx mv0 { mv with trace := mv.trace ++ [e] } s := by
  obtain ⟨l, hl1, hl2⟩ := h.trace
  refine ⟨h.status, h.nds, h.clk, ⟨l ++ [e], by simp [hl1], ?_⟩, h.flags⟩
  intro e' he'
  rcases List.mem_append.1 he' with he' | he'
  · exact hl2 e' he'
  · simp only [List.mem_singleton] at he'; subst he'; exact he

theorem MEff.data {s : Status} (h : MEff f ctx mv0 mv s) (d : D) (b : Bool) :
    MEff f ctx mv0 { mv with data := d, isDirtyValues := b } .OK :=
  ⟨.inl rfl, h.nds, h.clk, h.trace, h.flags⟩

theorem MEff.data' {s : Status} (h : MEff f ctx mv0 mv s) (d : D) :
    MEff f ctx mv0 { mv with data := d } .OK :=
  ⟨.inl rfl, h.nds, h.clk, h.trace, h.flags⟩

theorem EffR.ret {β : Type} {s : Status} {b : β} (h : MEff f ctx mv0 mv s) :
    EffR f ctx mv0 (.ret (mv, s, b)) := by simpa [EffR] using h
theorem EffR.ub {β : Type} : EffR (β := β) f ctx mv0 .ub := by simp [EffR]
theorem EffR.bind {α β : Type} {r : Outcome α} {k : α → MRes F D β}
    (h : ∀ a, EffR f ctx mv0 (k a)) : EffR f ctx mv0 (r >>- k) :=
  Outcome.all_bind.2 fun a _ => h a

theorem EffR.fail {β : Type} {s : Status} (h : MEff f ctx mv0 mv s) (msg : String) (b : β) :
    EffR f ctx mv0 (failM ctx mv msg b) := EffR.ret (h.log msg)

theorem EffR.nValues {β : Type} {s : Status} {n nv i : Nat} {b : β} {k : MRes F D β}
    (h : MEff f ctx mv0 mv s) (hk : EffR f ctx mv0 k) :
    EffR f ctx mv0 (assertNValues ctx mv n nv i b k) := by
  unfold assertNValues; split
  · exact EffR.fail h _ _
  · exact hk

theorem EffR.notNull {α β : Type} {s : Status} {p : Option α} {b : β} {k : MRes F D β}
    (h : MEff f ctx mv0 mv s) (hk : EffR f ctx mv0 k) :
    EffR f ctx mv0 (assertNotNull ctx mv p b k) := by
  unfold assertNotNull; split
  · exact EffR.fail h _ _
  · exact hk

theorem EffR.size {β : Type} {s : Status} {a e : Nat} {b : β} {k : MRes F D β}
    (h : MEff f ctx mv0 mv s) (hk : EffR f ctx mv0 k) :
    EffR f ctx mv0 (assertSize ctx mv a e b k) := by
  unfold assertSize; split
  · exact EffR.fail h _ _
  · exact hk

theorem EffR.put {α : Type} {p : Ptr α} {n i : Nat} {v : α} (h : MEff f ctx mv0 mv .OK) :
    EffR f ctx mv0 (putScalar ctx mv p n i v) :=
  EffR.nValues h (EffR.bind fun _ => EffR.ret h)

theorem EffR.take {α : Type} {p : Ptr α} {n i : Nat} {u : α → D} (h : MEff f ctx mv0 mv .OK) :
    EffR f ctx mv0 (takeScalar ctx mv p n i u) :=
  EffR.nValues h (EffR.bind fun _ => EffR.ret (h.data _ _))

theorem EffR.putV {mv' : MV F D} {p : Ptr F} {n : Nat} {l : List F} (h : MEff f ctx mv0 mv .OK)
    (h' : MEff f ctx mv0 mv' .OK) : EffR f ctx mv0 (putVector ctx mv mv' p n l) :=
  EffR.notNull h (EffR.size h (EffR.bind fun _ => EffR.ret h'))

theorem EffR.takeV {p : Ptr F} {n e : Nat} {u : List F → D} (h : MEff f ctx mv0 mv .OK) :
    EffR f ctx mv0 (takeVector ctx mv p n e u) :=
  EffR.notNull h (EffR.size h (EffR.bind fun _ => EffR.ret (h.data _ _)))

theorem EffR.getStub {t vr p n i} : EffR f ctx mv (getStub t ctx mv vr p n i) :=
  EffR.fail MEff.refl _ _
theorem EffR.setStub {t vr p n i} : EffR f ctx mv (setStub t ctx mv vr p n i) :=
  EffR.fail MEff.refl _ _
theorem EffR.vecStub {p n} : EffR f ctx mv (vecStub ctx mv p n) :=
  EffR.size MEff.refl (EffR.ret MEff.refl)
theorem EffR.partialStub {u k o} : EffR f ctx mv (partialStub ctx mv u k o) :=
  EffR.fail MEff.refl _ _
theorem EffR.errStub {β : Type} {b : β} : EffR f ctx mv (.ret (mv, .Error, b)) :=
  EffR.ret (MEff.same (.inr rfl) rfl rfl rfl rfl rfl rfl rfl rfl)
end

/-- A state that differs from the original one only in `data` and the dirty flag. -/
macro "mrefl" : tactic =>
  `(tactic| first
    | exact MEff.refl
    | exact MEff.same (.inl rfl) rfl rfl rfl rfl rfl rfl rfl rfl
    | exact MEff.same (.inr rfl) rfl rfl rfl rfl rfl rfl rfl rfl)

/-- Prove `EffR` of an accessor. -/
macro "meff" : tactic =>
  `(tactic| repeat' (first
    | with_reducible exact EffR.getStub
    | with_reducible exact EffR.setStub
    | with_reducible exact EffR.vecStub
    | with_reducible exact EffR.partialStub
    | with_reducible exact EffR.errStub
    | (with_reducible apply EffR.put) <;> mrefl
    | (with_reducible apply EffR.take) <;> mrefl
    | (with_reducible apply EffR.fail (s := .OK)) <;> mrefl
    | with_reducible refine EffR.notNull (s := .OK) ?_ ?_
    | with_reducible refine EffR.size (s := .OK) ?_ ?_
    | with_reducible refine EffR.nValues (s := .OK) ?_ ?_
    | (with_reducible apply EffR.putV) <;> mrefl
    | (with_reducible apply EffR.takeV) <;> mrefl
    | (with_reducible apply EffR.ret) <;> mrefl
    | with_reducible exact EffR.ub
    | (with_reducible apply EffR.bind) <;> intro _
    | mrefl
    | split))

/-- Reduce `Model.Eff` to the functions of the FMU. -/
theorem Model.Eff.intro {m : Model F D}
    (hcalc : ∀ ctx mv, EffR .calc ctx mv (m.calculateValues ctx mv))
    (get : ∀ t ctx mv vr p n i, EffR .get ctx mv (m.get t ctx mv vr p n i))
    (set : ∀ t ctx mv vr p n i, EffR .set ctx mv (m.set t ctx mv vr p n i))
    (event : ∀ eu, m.eventUpdate = some eu → ∀ ctx mv, EffR .event ctx mv (eu ctx mv))
    (getStates : ∀ ctx mv p n, EffR .getStates ctx mv (m.getContinuousStates ctx mv p n))
    (nominals : ∀ ctx mv p n, EffR .nominals ctx mv (m.getNominals ctx mv p n))
    (setStates : ∀ ctx mv p n, EffR .setStates ctx mv (m.setContinuousStates ctx mv p n))
    (deriv : ∀ ctx mv p n, EffR .deriv ctx mv (m.getDerivatives ctx mv p n))
    (ind : ∀ ctx mv p n, EffR .indicators ctx mv (m.getEventIndicators ctx mv p n))
    (pd : ∀ ctx mv u k o, EffR .partialDeriv ctx mv (m.getPartialDerivative ctx mv u k o))
    (od : ∀ g, m.getOutputDerivative = some g → ∀ ctx mv vr o v,
      EffR .outDeriv ctx mv (g ctx mv vr o v))
    (act : ∀ ctx mv vr, EffR .activate ctx mv (m.activateClock ctx mv vr))
    (gc : ∀ ctx mv vr o, EffR .getClock ctx mv (m.getClock ctx mv vr o))
    (gi : ∀ ctx mv vr i q, EffR .getInterval ctx mv (m.getInterval ctx mv vr i q))
    (part : ∀ ctx mv vr t, EffR .partition ctx mv (m.activateModelPartition ctx mv vr t)) :
    m.Eff := by
  intro f ctx mv mv' s h
  cases h with
  | «calc» e => exact EffR.of_eq (by apply hcalc) e
  | get e => exact EffR.of_eq (by apply get) e
  | set e => exact EffR.of_eq (by apply set) e
  | event h e => exact EffR.of_eq (by apply event _ h) e
  | getStates e => exact EffR.of_eq (by apply getStates) e
  | nominals e => exact EffR.of_eq (by apply nominals) e
  | setStates e => exact EffR.of_eq (by apply setStates) e
  | deriv e => exact EffR.of_eq (by apply deriv) e
  | indicators e => exact EffR.of_eq (by apply ind) e
  | partialDeriv e => exact EffR.of_eq (by apply pd) e
  | outDeriv h e => exact EffR.of_eq (by apply od _ h) e
  | activate e => exact EffR.of_eq (by apply act) e
  | getClock e => exact EffR.of_eq (by apply gc) e
  | getInterval e => exact EffR.of_eq (by apply gi) e
  | partition e => exact EffR.of_eq (by apply part) e

section
variable [Arith F]
set_option linter.unusedSectionVars false

theorem BouncingBall.eff : (BouncingBall.model (F := F)).Eff := by
  apply Model.Eff.intro
  case get =>
    intro t ctx mv vr p n i
    cases t <;> simp only [BouncingBall.model, BouncingBall.getFloat64] <;> meff
  case set =>
    intro t ctx mv vr p n i
    cases t <;> simp only [BouncingBall.model, BouncingBall.setFloat64] <;> meff
  case event =>
    intro eu h ctx mv; cases h
    unfold BouncingBall.eventUpdate
    simp only
    apply EffR.ret
    refine ⟨.inl rfl, ?_, ?_, ⟨[], ?_⟩, fun h => absurd rfl h⟩ <;> split <;> simp
  case od =>
    intro g h ctx mv vr o v; cases h
    unfold BouncingBall.getOutputDerivative; meff
  all_goals
    intros
    simp only [BouncingBall.model]
    meff

theorem Dahlquist.eff : (Dahlquist.model (F := F)).Eff := by
  apply Model.Eff.intro
  case get =>
    intro t ctx mv vr p n i
    cases t <;> simp only [Dahlquist.model, Dahlquist.getFloat64] <;> meff
  case set =>
    intro t ctx mv vr p n i
    cases t <;> simp only [Dahlquist.model, Dahlquist.setFloat64] <;> meff
  case event => intro eu h; cases h
  case od => intro eu h; cases h
  all_goals
    intros
    simp only [Dahlquist.model]
    meff

theorem VanDerPol.eff : (VanDerPol.model (F := F)).Eff := by
  apply Model.Eff.intro
  case get =>
    intro t ctx mv vr p n i
    cases t <;> simp only [VanDerPol.model, VanDerPol.getFloat64] <;> meff
  case set =>
    intro t ctx mv vr p n i
    cases t <;> simp only [VanDerPol.model, VanDerPol.setFloat64] <;> meff
  case event => intro eu h; cases h
  case od => intro eu h; cases h
  all_goals
    intros
    simp only [VanDerPol.model, VanDerPol.getPartialDerivative]
    meff

theorem Roberts.eff : (Roberts.model (F := F)).Eff := by
  apply Model.Eff.intro
  case get =>
    intro t ctx mv vr p n i
    cases t <;> simp only [Roberts.model, Roberts.getFloat64, Roberts.getBoolean] <;> meff
  case set =>
    intro t ctx mv vr p n i
    cases t <;> simp only [Roberts.model, Roberts.setFloat64, Roberts.setBoolean] <;> meff
  case event => intro eu h; cases h
  case od => intro eu h; cases h
  all_goals
    intros
    simp only [Roberts.model, Roberts.getPartialDerivative]
    meff

theorem Stair.eff : (Stair.model (F := F)).Eff := by
  apply Model.Eff.intro
  case get =>
    intro t ctx mv vr p n i
    cases t <;> simp only [Stair.model, Stair.getFloat64, Stair.getInt32] <;> meff
  case set =>
    intro t ctx mv vr p n i
    cases t <;> simp only [Stair.model, Stair.setInt32] <;> meff
  case event =>
    intro eu h ctx mv; cases h
    unfold Stair.eventUpdate
    refine Outcome.All.bind (R := fun mv' => MEff .event ctx mv mv' .OK) ?_ ?_
    · split
      · split
        · simp
        · simp only [Outcome.all_ret]
          exact ⟨.inl rfl, rfl, rfl, ⟨[], by simp⟩, fun h => absurd rfl h⟩
      · simpa using MEff.refl
    · intro mv' h
      split
      · exact EffR.fail h _ _
      · exact EffR.ret ⟨.inl rfl, h.nds, h.clk, h.trace, fun h => absurd rfl h⟩
  case od => intro eu h; cases h
  all_goals
    intros
    simp only [Stair.model]
    meff

theorem Resource.calc_eff {ver3 fs ctx} {mv : MV F Resource.Data} {f : MFn} :
    EffR f ctx mv (Resource.calculateValues ver3 fs ctx mv) := by
  unfold Resource.calculateValues; meff

theorem Resource.eff {ver3 fs} : (Resource.model (F := F) ver3 fs).Eff := by
  have key : ∀ {β : Type} {f : MFn} {ctx : Ctx F} {mv : MV F Resource.Data}
      {k : MV F Resource.Data × Status × Unit → MRes F Resource.Data β},
      (∀ mv' s, MEff f ctx mv mv' s → EffR f ctx mv (k (mv', s, ()))) →
      EffR f ctx mv (Resource.calculateValues ver3 fs ctx mv >>- k) := by
    intro β f ctx mv k h
    exact Outcome.All.bind Resource.calc_eff fun x hx => h x.1 x.2.1 hx
  apply Model.Eff.intro
  case get =>
    intro t ctx mv vr p n i
    have fin : ∀ {mv' : MV F Resource.Data} {s : Status}, MEff .get ctx mv mv' s →
        MEff .get ctx mv mv' .OK := fun h => ⟨.inl rfl, h.nds, h.clk, h.trace, h.flags⟩
    cases t <;> simp only [Resource.model, Resource.getFloat64, Resource.getInt32] <;>
      first
      | exact EffR.getStub
      | (refine EffR.notNull MEff.refl (key fun mv' s h => ?_)
         split
         · exact EffR.put (fin h)
         · exact EffR.fail h _ _)
  case set => intro t ctx mv vr p n i; exact EffR.setStub (vr := vr) (p := p) (n := n)
  case event => intro eu h; cases h
  case od => intro eu h; cases h
  case hcalc => intro ctx mv; exact Resource.calc_eff
  all_goals
    intros
    simp only [Resource.model]
    meff

theorem Feedthrough.eff {ver3} : (Feedthrough.model (F := F) ver3).Eff := by
  apply Model.Eff.intro
  case get =>
    intro t ctx mv vr p n i
    cases t <;> simp only [Feedthrough.model, Feedthrough.getFloat32, Feedthrough.getFloat64,
      Feedthrough.getInt8, Feedthrough.getUInt8, Feedthrough.getInt16, Feedthrough.getUInt16,
      Feedthrough.getInt32, Feedthrough.getUInt32, Feedthrough.getInt64, Feedthrough.getUInt64,
      Feedthrough.getBoolean, Feedthrough.getString, Feedthrough.getBinary] <;> meff
  case set =>
    intro t ctx mv vr p n i
    cases t <;> simp only [Feedthrough.model, Feedthrough.setFloat32, Feedthrough.setFloat64,
      Feedthrough.setInt8, Feedthrough.setUInt8, Feedthrough.setInt16, Feedthrough.setUInt16,
      Feedthrough.setInt32, Feedthrough.setUInt32, Feedthrough.setInt64, Feedthrough.setUInt64,
      Feedthrough.setBoolean, Feedthrough.setString, Feedthrough.setBinary] <;> meff
  case event =>
    intro eu h ctx mv; cases h
    exact EffR.ret ⟨.inl rfl, rfl, rfl, ⟨[], by simp⟩, fun h => absurd rfl h⟩
  case od => intro eu h; cases h
  all_goals
    intros
    simp only [Feedthrough.model]
    meff

theorem StateSpace.calc_all {mv : MV F (StateSpace.Data F)} :
    (StateSpace.calculateValues mv).All fun mv' => mv' = StateSpace.calcValues mv := by
  unfold StateSpace.calculateValues StateSpace.guarded
  split <;> simp

theorem StateSpace.calc_bind {β : Type} {f : MFn} {ctx : Ctx F} {mv : MV F (StateSpace.Data F)}
    {k : MV F (StateSpace.Data F) → MRes F (StateSpace.Data F) β}
    (h : EffR f ctx mv (k (StateSpace.calcValues mv))) :
    EffR f ctx mv (StateSpace.calculateValues mv >>- k) := by
  refine Outcome.All.bind StateSpace.calc_all ?_
  rintro _ rfl
  exact h

theorem StateSpace.eff : (StateSpace.model (F := F)).Eff := by
  have put : ∀ {f : MFn} {ctx : Ctx F} {mv0 mv : MV F (StateSpace.Data F)} {p n i l},
      MEff f ctx mv0 mv .OK → EffR f ctx mv0 (StateSpace.putBlock ctx mv p n i l) :=
    fun h => EffR.nValues h (EffR.bind fun _ => EffR.ret h)
  have take : ∀ {f : MFn} {ctx : Ctx F} {mv0 mv : MV F (StateSpace.Data F)} {p n i e u},
      MEff f ctx mv0 mv .OK → EffR f ctx mv0 (StateSpace.takeBlock ctx mv p n i e u) := by
    intro f ctx mv0 mv p n i e u h
    refine EffR.nValues h ?_
    unfold StateSpace.guarded
    split
    · exact EffR.bind fun _ => EffR.ret (h.data _ _)
    · exact EffR.ub
  apply Model.Eff.intro
  case get =>
    intro t ctx mv vr p n i
    cases t <;> simp only [StateSpace.model, StateSpace.getFloat64, StateSpace.getUInt64] <;>
      first
      | (refine EffR.notNull MEff.refl ?_
         refine StateSpace.calc_bind ?_
         split <;> first
           | (apply put; mrefl)
           | meff)
      | meff
  case set =>
    intro t ctx mv vr p n i
    cases t <;> simp only [StateSpace.model, StateSpace.setFloat64, StateSpace.setUInt64] <;>
      repeat' (first
        | (apply take; mrefl)
        | (apply EffR.notNull (s := .OK) (by mrefl))
        | split
        | meff)
  case event =>
    intro eu h ctx mv; cases h
    exact EffR.ret ⟨.inl rfl, rfl, rfl, ⟨[], by simp⟩, fun h => absurd rfl h⟩
  case od => intro eu h; cases h
  case deriv =>
    intro ctx mv p n
    simp only [StateSpace.model, StateSpace.checkNx]
    refine EffR.notNull MEff.refl ?_
    split
    · exact EffR.fail MEff.refl _ _
    · refine Outcome.All.bind StateSpace.calc_all ?_
      rintro _ rfl
      exact EffR.bind fun _ => EffR.ret (by mrefl)
  case hcalc =>
    intro ctx mv
    refine Outcome.All.bind StateSpace.calc_all ?_
    rintro _ rfl
    exact EffR.ret (by mrefl)
  all_goals
    intros
    simp only [StateSpace.model, StateSpace.checkNx, StateSpace.guarded]
    meff

theorem Clocks.part_eff {ctx : Ctx F} {mv : MV F (Clocks.Data F)} {vr t} :
    EffR .partition ctx mv (Clocks.activateModelPartition ctx mv vr t) := by
  have lock : ∀ {mv' : MV F (Clocks.Data F)}, MEff .partition ctx mv mv' .OK →
      MEff .partition ctx mv (Clocks.callLock ctx mv') .OK := by
    intro mv' h; unfold Clocks.callLock; split
    · next hl => exact h.emit ⟨hl, rfl⟩
    · exact h
  have unlock : ∀ {mv' : MV F (Clocks.Data F)}, MEff .partition ctx mv mv' .OK →
      MEff .partition ctx mv (Clocks.callUnlock ctx mv') .OK := by
    intro mv' h; unfold Clocks.callUnlock; split
    · next hl => exact h.emit ⟨hl, rfl⟩
    · exact h
  have upd : ∀ {mv' : MV F (Clocks.Data F)} {c : Prop} [Decidable c], MEff .partition ctx mv mv' .OK →
      (if c then Clocks.callClockUpdate ctx mv' else .ret mv').All
        fun mv' => MEff .partition ctx mv mv' .OK := by
    intro mv' c _ h; unfold Clocks.callClockUpdate; split
    · split
      · next hl => rw [Outcome.all_ret]; exact h.emit (e := .clockUpdate) ⟨hl, rfl⟩
      · simp
    · simpa using h
  have fin : ∀ {r : Outcome (MV F (Clocks.Data F))}, r.All (fun mv' => MEff .partition ctx mv mv' .OK) →
      EffR .partition ctx mv (r >>- fun mv => .ret (mv, .OK, ())) :=
    fun h => Outcome.All.bind h fun mv' h => EffR.ret h
  have b : ∀ {α β : Type} {r : Outcome α} {k : α → Outcome β} {Q : β → Prop},
      (∀ a, (k a).All Q) → (r >>- k).All Q := fun h => Outcome.all_bind.2 fun a _ => h a
  unfold Clocks.activateModelPartition
  split
  · apply fin
    unfold Clocks.partition1
    refine b fun _ => b fun _ => ?_
    simp only
    split
    · simp
    · exact upd (MEff.refl.data' _)
  · apply fin
    unfold Clocks.partition2
    refine b fun _ => b fun _ => b fun _ => ?_
    exact upd (unlock ((lock MEff.refl).data' _))
  · apply fin
    unfold Clocks.partition3
    refine b fun _ => b fun _ => ?_
    exact upd (unlock ((lock (MEff.refl.data' _)).data' _))
  · exact EffR.fail MEff.refl _ _

theorem Clocks.eff : (Clocks.model (F := F)).Eff := by
  apply Model.Eff.intro
  case get =>
    intro t ctx mv vr p n i
    cases t <;> simp only [Clocks.model, Clocks.getFloat64, Clocks.getInt32] <;> meff
  case set =>
    intro t ctx mv vr p n i
    cases t <;> simp only [Clocks.model, Clocks.setInt32] <;> meff
  case event => intro eu h ctx mv; cases h; exact EffR.ret MEff.refl
  case od => intro eu h; cases h
  case part => intros; exact Clocks.part_eff
  all_goals
    intros
    simp only [Clocks.model, Clocks.getClock, Clocks.getInterval]
    meff

theorem RefFMU2.eff {m : Model F D} (h : RefFMU2 m) : m.Eff := by
  cases h
  · exact BouncingBall.eff
  · exact Dahlquist.eff
  · exact Feedthrough.eff
  · exact Resource.eff
  · exact Stair.eff
  · exact VanDerPol.eff

theorem RefFMU3.eff {m : Model F D} (h : RefFMU3 m) : m.Eff := by
  cases h
  · exact BouncingBall.eff
  · exact Clocks.eff
  · exact Dahlquist.eff
  · exact Feedthrough.eff
  · exact Resource.eff
  · exact Roberts.eff
  · exact Stair.eff
  · exact StateSpace.eff
  · exact VanDerPol.eff

end
end Verif
