import Verif.Lemmas.NoHang

/-! # All API functions but `DoStep` return -/

set_option linter.unusedSectionVars false

namespace Verif

/-- Look through the code of a function without loops. -/
macro "ends" : tactic => `(tactic| repeat' first
  | exact Outcome.Ends.ret _
  | exact Outcome.Ends.ub
  | exact Outcome.Ends.readPtr _ _
  | exact Outcome.Ends.writePtr _ _ _
  | exact Outcome.Ends.readN _ _ _
  | exact Outcome.Ends.writeN _ _ _
  | refine Outcome.Ends.bind ?_ fun _ => ?_
  | split)

/-- The functions of `model.c` return. -/
structure Model.EndsAll {F D : Type} (m : Model F D) : Prop extends m.Ends where
  «calc» : ∀ ctx mv, (m.calculateValues ctx mv).Ends
  get : ∀ t ctx mv vr p n i, (m.get t ctx mv vr p n i).Ends
  set : ∀ t ctx mv vr p n i, (m.set t ctx mv vr p n i).Ends
  nominals : ∀ ctx mv p n, (m.getNominals ctx mv p n).Ends
  partialD : ∀ ctx mv u k o, (m.getPartialDerivative ctx mv u k o).Ends
  outD : ∀ f, m.getOutputDerivative = some f → ∀ ctx mv vr o v, (f ctx mv vr o v).Ends
  activate : ∀ ctx mv vr, (m.activateClock ctx mv vr).Ends
  getClock : ∀ ctx mv vr o, (m.getClock ctx mv vr o).Ends
  getInterval : ∀ ctx mv vr i q, (m.getInterval ctx mv vr i q).Ends
  partition : ∀ ctx mv vr t, (m.activateModelPartition ctx mv vr t).Ends

section
variable {F D : Type} [Arith F]

omit [Arith F] in
theorem ends_failM {α : Type} (ctx : Ctx F) (mv : MV F D) (msg : String) (a : α) : (failM ctx mv msg a).Ends := .ret _

theorem ends_putScalar {α : Type} (ctx : Ctx F) (mv : MV F D) (p : Ptr α) (n i : Nat) (v : α) : (putScalar ctx mv p n i v).Ends := by
  unfold putScalar assertNValues failM
  ends

theorem ends_takeScalar {α : Type} (ctx : Ctx F) (mv : MV F D) (p : Ptr α) (n i : Nat) (k) : (takeScalar ctx mv p n i k).Ends := by
  unfold takeScalar assertNValues failM
  ends

theorem ends_assertNValues {α : Type} {ctx : Ctx F} {mv : MV F D} {k n i : Nat} {a : α} {r : MRes F D α} (h : r.Ends) :
    (assertNValues ctx mv k n i a r).Ends := by
  unfold assertNValues failM
  split
  · exact .ret _
  · exact h

macro "mends" : tactic => `(tactic| repeat' first
  | exact Outcome.Ends.ret _
  | exact Outcome.Ends.ub
  | exact Outcome.Ends.readPtr _ _
  | exact Outcome.Ends.writePtr _ _ _
  | exact Outcome.Ends.readN _ _ _
  | exact Outcome.Ends.writeN _ _ _
  | exact ends_failM _ _ _ _
  | exact ends_putScalar _ _ _ _ _ _
  | exact ends_takeScalar _ _ _ _ _ _
  | refine ends_assertNValues ?_
  | refine Outcome.Ends.bind ?_ fun _ => ?_
  | split
  | dsimp only [])

theorem Resource.ends_calc (b fs) (ctx : Ctx F) (mv : MV F Resource.Data) : (Resource.calculateValues b fs ctx mv).Ends := by
  unfold Resource.calculateValues Resource.resourcePath
  mends

theorem StateSpace.ends_calc (mv : MV F (StateSpace.Data F)) : (StateSpace.calculateValues mv).Ends :=
  StateSpace.guarded_ends (.ret _)

theorem StateSpace.ends_putBlock (ctx : Ctx F) (mv : MV F (StateSpace.Data F)) (p : Ptr F) (n i : Nat) (vs : List F) :
    (StateSpace.putBlock ctx mv p n i vs).Ends := by
  unfold StateSpace.putBlock
  mends

theorem StateSpace.ends_takeBlock (ctx : Ctx F) (mv : MV F (StateSpace.Data F)) (p : Ptr F) (n i k : Nat) (vs) :
    (StateSpace.takeBlock ctx mv p n i k vs).Ends := by
  unfold StateSpace.takeBlock
  repeat' first | refine StateSpace.guarded_ends ?_ | mends

theorem StateSpace.ends_getFloat64 (ctx : Ctx F) (mv : MV F (StateSpace.Data F)) (vr : Nat) (p : Ptr F) (n i : Nat) :
    (StateSpace.getFloat64 ctx mv vr p n i).Ends := by
  unfold StateSpace.getFloat64 assertNotNull
  split
  · exact ends_failM _ _ _ _
  refine .bind (StateSpace.ends_calc _) fun mv => ?_
  dsimp only
  split
  case h_1 => exact ends_putScalar _ _ _ _ _ _
  case h_11 => exact ends_failM _ _ _ _
  all_goals exact StateSpace.ends_putBlock _ _ _ _ _ _

theorem StateSpace.ends_getUInt64 (ctx : Ctx F) (mv : MV F (StateSpace.Data F)) (vr : Nat) (p : Ptr Int) (n i : Nat) :
    (StateSpace.getUInt64 ctx mv vr p n i).Ends := by
  unfold StateSpace.getUInt64 assertNotNull
  mends

theorem StateSpace.ends_setFloat64 (ctx : Ctx F) (mv : MV F (StateSpace.Data F)) (vr : Nat) (p : Ptr F) (n i : Nat) :
    (StateSpace.setFloat64 ctx mv vr p n i).Ends := by
  unfold StateSpace.setFloat64 assertNotNull
  split
  · exact ends_failM _ _ _ _
  dsimp only
  split
  case h_7 =>
    split
    · exact ends_failM _ _ _ _
    · exact StateSpace.ends_takeBlock _ _ _ _ _ _ _
  case h_8 => exact ends_failM _ _ _ _
  all_goals exact StateSpace.ends_takeBlock _ _ _ _ _ _ _

theorem StateSpace.ends_setUInt64 (ctx : Ctx F) (mv : MV F (StateSpace.Data F)) (vr : Nat) (p : Ptr Int) (n i : Nat) :
    (StateSpace.setUInt64 ctx mv vr p n i).Ends := by
  unfold StateSpace.setUInt64 assertNotNull
  mends

set_option maxHeartbeats 2000000 in
theorem Feedthrough.ends_get (b : Bool) : ∀ t ctx mv vr p n i, ((Feedthrough.model (F := F) b).get t ctx mv vr p n i).Ends := by
  intro t ctx mv vr p n i
  cases t <;> simp only [Feedthrough.model, Feedthrough.getFloat32, Feedthrough.getFloat64, Feedthrough.getInt8, Feedthrough.getUInt8, Feedthrough.getInt16, Feedthrough.getUInt16, Feedthrough.getInt32, Feedthrough.getUInt32, Feedthrough.getInt64, Feedthrough.getUInt64, Feedthrough.getBoolean, Feedthrough.getString, Feedthrough.getBinary, assertNotNull] <;> mends

set_option maxHeartbeats 2000000 in
theorem Resource.ends_get (b : Bool) (fs : Resource.FileSystem) : ∀ t ctx mv vr p n i, ((Resource.model (F := F) b fs).get t ctx mv vr p n i).Ends := by
  intro t ctx mv vr p n i
  cases t
  case float64 =>
    simp only [Resource.model, Resource.getFloat64, assertNotNull]
    split
    · exact ends_failM _ _ _ _
    refine .bind (Resource.ends_calc _ _ _ _) fun a => ?_
    split
    · exact ends_putScalar _ _ _ _ _ _
    · exact ends_failM _ _ _ _
  case int32 =>
    simp only [Resource.model, Resource.getInt32, assertNotNull]
    split
    · exact ends_failM _ _ _ _
    refine .bind (Resource.ends_calc _ _ _ _) fun a => ?_
    split
    · exact ends_putScalar _ _ _ _ _ _
    · exact ends_failM _ _ _ _
  all_goals exact .ret _

set_option maxHeartbeats 2000000 in
theorem Feedthrough.ends_set (b : Bool) : ∀ t ctx mv vr p n i, ((Feedthrough.model (F := F) b).set t ctx mv vr p n i).Ends := by
  intro t ctx mv vr p n i
  cases t <;> simp only [Feedthrough.model, Feedthrough.setFloat32, Feedthrough.setFloat64, Feedthrough.setInt8, Feedthrough.setUInt8, Feedthrough.setInt16, Feedthrough.setUInt16, Feedthrough.setInt32, Feedthrough.setUInt32, Feedthrough.setInt64, Feedthrough.setUInt64, Feedthrough.setBoolean, Feedthrough.setString, Feedthrough.setBinary, assertNotNull] <;> mends

set_option maxHeartbeats 2000000 in
theorem Resource.ends_set (b : Bool) (fs : Resource.FileSystem) : ∀ t ctx mv vr p n i, ((Resource.model (F := F) b fs).set t ctx mv vr p n i).Ends := by
  intro t ctx mv vr p n i
  exact .ret _

set_option maxHeartbeats 2000000 in
theorem RefFMU3.endsGet {m : Model F D} (hm : RefFMU3 m) : ∀ t ctx mv vr p n i, (m.get t ctx mv vr p n i).Ends := by
  cases hm
  case feedthrough => exact Feedthrough.ends_get _
  case bouncingBall =>
    intro t ctx mv vr p n i
    cases t <;> simp only [BouncingBall.model, BouncingBall.getFloat64, getStub, assertNotNull] <;> mends
  case clocks =>
    intro t ctx mv vr p n i
    cases t <;> simp only [Clocks.model, Clocks.getFloat64, Clocks.getInt32, getStub, assertNotNull] <;> mends
  case dahlquist =>
    intro t ctx mv vr p n i
    cases t <;> simp only [Dahlquist.model, Dahlquist.getFloat64, getStub, assertNotNull] <;> mends
  case vanDerPol =>
    intro t ctx mv vr p n i
    cases t <;> simp only [VanDerPol.model, VanDerPol.getFloat64, getStub, assertNotNull] <;> mends
  case roberts =>
    intro t ctx mv vr p n i
    cases t <;> simp only [Roberts.model, Roberts.getFloat64, Roberts.getBoolean, getStub, assertNotNull] <;> mends
  case stair =>
    intro t ctx mv vr p n i
    cases t <;> simp only [Stair.model, Stair.getFloat64, Stair.getInt32, getStub, assertNotNull] <;> mends
  case resource => exact Resource.ends_get _ _
  case stateSpace =>
    intro t ctx mv vr p n i
    cases t
    case float64 => exact StateSpace.ends_getFloat64 ctx mv vr p n i
    case uint64 => exact StateSpace.ends_getUInt64 ctx mv vr p n i
    all_goals exact .ret _

set_option maxHeartbeats 2000000 in
theorem RefFMU3.endsSet {m : Model F D} (hm : RefFMU3 m) : ∀ t ctx mv vr p n i, (m.set t ctx mv vr p n i).Ends := by
  cases hm
  case feedthrough => exact Feedthrough.ends_set _
  case bouncingBall =>
    intro t ctx mv vr p n i
    cases t <;> simp only [BouncingBall.model, BouncingBall.setFloat64, setStub, assertNotNull] <;> mends
  case clocks =>
    intro t ctx mv vr p n i
    cases t <;> simp only [Clocks.model, Clocks.setInt32, setStub, assertNotNull] <;> mends
  case dahlquist =>
    intro t ctx mv vr p n i
    cases t <;> simp only [Dahlquist.model, Dahlquist.setFloat64, setStub, assertNotNull] <;> mends
  case vanDerPol =>
    intro t ctx mv vr p n i
    cases t <;> simp only [VanDerPol.model, VanDerPol.setFloat64, setStub, assertNotNull] <;> mends
  case roberts =>
    intro t ctx mv vr p n i
    cases t <;> simp only [Roberts.model, Roberts.setFloat64, Roberts.setBoolean, setStub, assertNotNull] <;> mends
  case stair =>
    intro t ctx mv vr p n i
    cases t <;> simp only [Stair.model, Stair.setInt32, setStub, assertNotNull] <;> mends
  case resource => exact Resource.ends_set _ _
  case stateSpace =>
    intro t ctx mv vr p n i
    cases t
    case float64 => exact StateSpace.ends_setFloat64 ctx mv vr p n i
    case uint64 => exact StateSpace.ends_setUInt64 ctx mv vr p n i
    all_goals exact .ret _

theorem Clocks.ends_partition (ctx : Ctx F) (mv : MV F (Clocks.Data F)) (vr : Nat) (t : F) :
    (Clocks.activateModelPartition ctx mv vr t).Ends := by
  unfold Clocks.activateModelPartition Clocks.partition1 Clocks.partition2 Clocks.partition3 Clocks.callClockUpdate Clocks.toInt32
  mends

theorem RefFMU3.endsAll {m : Model F D} (hm : RefFMU3 m) : m.EndsAll where
  toEnds := hm.ends
  get := hm.endsGet
  set := hm.endsSet
  «calc» := by
    cases hm
    case stateSpace => exact fun _ _ => .bind (StateSpace.ends_calc _) fun _ => .ret _
    case resource => exact Resource.ends_calc _ _
    all_goals exact fun _ _ => .ret _
  nominals := by
    cases hm
    case stateSpace =>
      intro ctx mv p n
      simp only [StateSpace.model, assertNotNull, StateSpace.checkNx]
      mends
    all_goals
      intro ctx mv p n
      first | exact Ends.vecStub _ _ _ _ | exact Ends.putVector _ _ _ _ _ _
  partialD := by
    cases hm
    case vanDerPol =>
      intro ctx mv u k o
      simp only [VanDerPol.model, VanDerPol.getPartialDerivative]
      mends
    case roberts =>
      intro ctx mv u k o
      simp only [Roberts.model, Roberts.getPartialDerivative]
      mends
    all_goals exact fun _ _ _ _ _ => .ret _
  outD := by
    cases hm
    case bouncingBall =>
      intro f hf ctx mv vr o v
      cases hf
      unfold BouncingBall.getOutputDerivative
      mends
    all_goals exact fun f hf => nomatch hf
  activate := by cases hm <;> exact fun _ _ _ => .ret _
  getClock := by
    cases hm
    case clocks =>
      intro ctx mv vr o
      simp only [Clocks.model, Clocks.getClock]
      mends
    all_goals exact fun _ _ _ _ => .ret _
  getInterval := by
    cases hm
    case clocks =>
      intro ctx mv vr i q
      simp only [Clocks.model, Clocks.getInterval]
      mends
    all_goals exact fun _ _ _ _ _ => .ret _
  partition := by
    cases hm
    case clocks => exact Clocks.ends_partition
    all_goals exact fun _ _ _ _ => .ret _

theorem RefFMU2.endsAll {m : Model F D} (hm : RefFMU2 m) : m.EndsAll := by
  cases hm with
  | bouncingBall => exact RefFMU3.bouncingBall.endsAll
  | dahlquist => exact RefFMU3.dahlquist.endsAll
  | stair => exact RefFMU3.stair.endsAll
  | vanDerPol => exact RefFMU3.vanDerPol.endsAll
  | feedthrough =>
    exact {
      toEnds := RefFMU2.feedthrough.ends, get := Feedthrough.ends_get _, set := Feedthrough.ends_set _
      «calc» := fun _ _ => .ret _, nominals := fun _ _ _ _ => Ends.vecStub _ _ _ _
      partialD := fun _ _ _ _ _ => .ret _, outD := (fun f hf => nomatch hf), activate := fun _ _ _ => .ret _
      getClock := fun _ _ _ _ => .ret _, getInterval := fun _ _ _ _ _ => .ret _, partition := fun _ _ _ _ => .ret _ }
  | resource fs =>
    exact {
      toEnds := (RefFMU2.resource fs).ends, get := Resource.ends_get _ _, set := Resource.ends_set _ _
      «calc» := Resource.ends_calc _ _, nominals := fun _ _ _ _ => Ends.vecStub _ _ _ _
      partialD := fun _ _ _ _ _ => .ret _, outD := (fun f hf => nomatch hf), activate := fun _ _ _ => .ret _
      getClock := fun _ _ _ _ => .ret _, getInterval := fun _ _ _ _ _ => .ret _, partition := fun _ _ _ _ => .ret _ }

/-! ### The API functions -/

variable {m : Model F D}

omit [Arith F] in
theorem ends_callLast {α β : Type} {r : Res F D α} {out : α → β} (h : r.Ends) : (callLast r out).Ends :=
  Ends.call h fun _ _ _ => .ret _

omit [Arith F] in
theorem ends_begin {β : Type} {a : Bool} {name : String} {c : Comp F D} {stop : β} {k : Comp F D → Res F D β}
    (h : ∀ c, (k c).Ends) : (beginFunction a name c stop k).Ends := by
  unfold beginFunction
  split
  · exact h _
  · exact .ret _

omit [Arith F] in
theorem ends_nonNull {α β : Type} {p : Option α} {c : Comp F D} {stop : β} {k : Res F D β} (h : k.Ends) :
    (assertNonNull p c stop k).Ends := by
  unfold assertNonNull
  split
  · exact .ret _
  · exact h

theorem ends_refresh {β : Type} (hm : m.EndsAll) {st : Status} {c : Comp F D} {stop : β} {k : Comp F D → Status → Res F D β}
    (h : ∀ c s, (k c s).Ends) : (refresh m st c stop k).Ends := by
  unfold refresh
  split
  · exact Ends.call (Ends.lift (hm.calc _ _)) fun _ _ _ => h _ _
  · exact h _ _

theorem ends_configurate (hm : m.EndsAll) (c : Comp F D) : (configurate m c).Ends := by
  unfold configurate
  dsimp only
  split
  · exact Ends.callCo (Ends.lift (hm.getZ _ _ _ _)) fun _ _ => .ret _
  · exact .ret _

theorem ends_getLoop (hm : m.EndsAll) (t : VType) (vr : Ptr Nat) (nv n : Nat) :
    ∀ i c st v ix, (getLoop m t vr nv n i c st v ix).Ends := by
  induction n with
  | zero => intro i c st v ix; exact .ret _
  | succ n ih =>
    intro i c st v ix
    refine .bind (.readPtr _ _) fun r => ?_
    exact Ends.call (Ends.lift (hm.get _ _ _ _ _ _ _)) fun _ _ _ => ih _ _ _ _ _

theorem ends_setLoop (hm : m.EndsAll) (t : VType) (vr : Ptr Nat) (v : Ptr (t.Val F)) (nv n : Nat) :
    ∀ i c st ix, (setLoop m t vr v nv n i c st ix).Ends := by
  induction n with
  | zero => intro i c st ix; exact .ret _
  | succ n ih =>
    intro i c st ix
    refine .bind (.readPtr _ _) fun r => ?_
    exact Ends.call (Ends.lift (hm.set _ _ _ _ _ _ _)) fun _ _ _ => ih _ _ _ _

theorem ends_derivInner (hm : m.EndsAll) {pair : Nat → Outcome (Nat × Nat)} (hp : ∀ j, (pair j).Ends) (seed : Ptr F) (n : Nat) :
    ∀ j c st acc, (derivInner m pair seed n j c st acc).Ends := by
  induction n with
  | zero => intro j c st acc; exact .ret _
  | succ n ih =>
    intro j c st acc
    refine .bind (hp _) fun r => ?_
    exact Ends.call (Ends.lift (hm.partialD _ _ _ _ _)) fun _ _ _ => .bind (.readPtr _ _) fun _ => ih _ _ _ _

theorem ends_derivOuter (hm : m.EndsAll) {pair : Nat → Nat → Outcome (Nat × Nat)} (hp : ∀ i j, (pair i j).Ends) (seed : Ptr F) (k n : Nat) :
    ∀ i c st out, (derivOuter m pair seed k n i c st out).Ends := by
  induction n with
  | zero => intro i c st out; exact .ret _
  | succ n ih =>
    intro i c st out
    refine .bind (.writePtr _ _ _) fun out => ?_
    refine .bind (ends_derivInner hm (hp i) _ _ _ _ _ _) fun x => ?_
    refine .bind (.writePtr _ _ _) fun out => ?_
    exact .ite (.ret _) (ih _ _ _ _)

omit [Arith F] in
theorem ends_outputDerivLoop {f : Ctx F → MV F D → Nat → Int → F → MRes F D F} (hf : ∀ ctx mv vr o v, (f ctx mv vr o v).Ends)
    (vr : Ptr Nat) (order : Ptr Int) (n : Nat) : ∀ i c st out, (outputDerivLoop f vr order n i c st out).Ends := by
  induction n with
  | zero => intro i c st out; exact .ret _
  | succ n ih =>
    intro i c st out
    refine .bind (.readPtr _ _) fun _ => .bind (.readPtr _ _) fun _ => .bind (.readPtr _ _) fun _ => ?_
    refine .bind (Ends.lift (hf _ _ _ _ _)) fun x => .bind (.writePtr _ _ _) fun out => ?_
    exact Ends.call (.ret _) fun _ _ _ => ih _ _ _ _

omit [Arith F] in
theorem ends_setDebugLogging (c : Comp F D) (on : Bool) (n : Nat) (cats : Ptr (Option String)) : (setDebugLogging c on n cats).Ends := by
  have hl : ∀ n i (c : Comp F D), (setDebugLoggingLoop on cats n i c).Ends := by
    intro n
    induction n with
    | zero => intro i c; exact .ret _
    | succ n ih =>
      intro i c
      refine .bind (.readPtr _ _) fun s => ?_
      cases s with
      | none => exact .ret _
      | some s => exact .ite (ih _ _) (.ite (ih _ _) (.ret _))
  unfold setDebugLogging
  repeat' split
  · exact .ret _
  · exact hl _ _ _
  · exact .ret _

omit [Arith F] in
theorem ends_store (b : Option (Buffer F D)) (s : Comp F D) : (Buffer.store m b s).Ends := by
  unfold Buffer.store
  ends

omit [Arith F] in
theorem ends_load (b : Option (Buffer F D)) : (Buffer.load m b).Ends := by
  unfold Buffer.load
  ends

namespace FMI2

omit [Arith F] in
theorem ends_begin {β : Type} {mask : Nat} {name : String} {c : Comp F D} {stop : β} {k : Comp F D → Res F D β}
    (h : ∀ c, (k c).Ends) : (begin mask name c stop k).Ends := Verif.ends_begin h

theorem ends_getBooleanLoop (hm : m.EndsAll) (vr : Ptr Nat) (nv n : Nat) : ∀ i c st v, (getBooleanLoop m vr nv n i c st v).Ends := by
  induction n with
  | zero => intro i c st v; exact .ret _
  | succ n ih =>
    intro i c st v
    refine .bind (.readPtr _ _) fun r => ?_
    exact Ends.call (Ends.lift (hm.get _ _ _ _ _ _ _)) fun _ _ _ => .bind (.readPtr _ _) fun _ => .bind (.writePtr _ _ _) fun _ => ih _ _ _ _

theorem ends_setBooleanLoop (hm : m.EndsAll) (vr : Ptr Nat) (nv : Nat) (v : Ptr Int) (n : Nat) : ∀ i c st, (setBooleanLoop m vr nv v n i c st).Ends := by
  induction n with
  | zero => intro i c st; exact .ret _
  | succ n ih =>
    intro i c st
    refine .bind (.readPtr _ _) fun _ => .bind (.readPtr _ _) fun r => ?_
    exact Ends.call (Ends.lift (hm.set _ _ _ _ _ _ _)) fun _ _ _ => ih _ _ _

theorem ends_getVariables (hm : m.EndsAll) (t : VType) (vr : Ptr Nat) (n : Nat) (v : Ptr (t.Val F)) (c : Comp F D) :
    (getVariables m t vr n v c).Ends := by
  unfold getVariables
  refine .ite (.ret _) (ends_nonNull (ends_nonNull (ends_refresh hm fun c s => ?_)))
  exact .bind (ends_getLoop hm _ _ _ _ _ _ _ _ _) fun _ => .ret _

theorem ends_setVariables (hm : m.EndsAll) (t : VType) (vr : Ptr Nat) (n : Nat) (v : Ptr (t.Val F)) (c : Comp F D) :
    (setVariables m t vr n v c).Ends := by
  unfold setVariables
  refine .ite (.ret _) (ends_nonNull (ends_nonNull ?_))
  exact .bind (ends_setLoop hm _ _ _ _ _ _ _ _ _) fun _ => .ite (.ret _) (.ret _)

omit [Arith F] in
theorem ends_statusAux (c : Comp F D) (s : StatusKind) : (getStatusAux c s).Ends := by cases s <;> exact .ret _

/-- Every call but one of `fmi2DoStep` returns or executes undefined behaviour. -/
theorem step_ends [HasInf F] (hm : m.EndsAll) {op : Op F} (h : op.fn ≠ .doStep) (fuel : Nat) (w : World F D) :
    (step m fuel w op).Ends := by
  have hr : ∀ {β} {r : Res F D β} {out : β → Out F}, r.Ends → (w.run r out).Ends := fun h => .bind h fun _ => .ret _
  have hs : ∀ {i} {r : Res F D (Option (Comp F D))}, r.Ends → (w.runSlot i r).Ends := fun h => .bind h fun _ => .ret _
  have hb : ∀ {i} {r : Res F D (Option (Buffer F D))}, r.Ends → (w.runBuf i r).Ends := fun h => .bind h fun _ => .ret _
  cases op <;> dsimp only [step, FMI2.setDebugLogging, FMI2.setupExperiment, FMI2.enterInitializationMode, FMI2.exitInitializationMode, FMI2.terminate, FMI2.reset, FMI2.getReal, FMI2.getInteger, FMI2.getBoolean, FMI2.getString, FMI2.setReal, FMI2.setInteger, FMI2.setBoolean, FMI2.setString, FMI2.getFMUstate, FMI2.setFMUstate, FMI2.freeFMUstate, FMI2.serializedFMUstateSize, FMI2.serializeFMUstate, FMI2.deSerializeFMUstate, FMI2.getDirectionalDerivative, FMI2.setRealInputDerivatives, FMI2.getRealOutputDerivatives, FMI2.cancelStep, FMI2.getStatus, FMI2.getRealStatus, FMI2.getIntegerStatus, FMI2.getBooleanStatus, FMI2.getStringStatus, FMI2.enterEventMode, FMI2.newDiscreteStates, FMI2.enterContinuousTimeMode, FMI2.completedIntegratorStep, FMI2.setTime, FMI2.setContinuousStates, FMI2.getDerivatives, FMI2.getEventIndicators, FMI2.getContinuousStates, FMI2.getNominals]
  case doStep => exact absurd rfl h
  case setDebugLogging => (refine hr ?_; refine ends_begin fun c => ?_; exact ends_callLast (ends_setDebugLogging _ _ _ _))
  case setupExperiment => (refine hr ?_; refine ends_begin fun c => ?_; exact .ret _)
  case enterInitializationMode => (refine hr ?_; refine ends_begin fun c => ?_; exact .ret _)
  case exitInitializationMode =>
    (refine hr ?_; refine ends_begin fun c => ?_; exact ends_refresh hm fun c s => Ends.call (ends_configurate hm _) fun _ _ _ => .ret _)
  case terminate => (refine hr ?_; refine ends_begin fun c => ?_; exact .ret _)
  case reset => (refine hr ?_; refine ends_begin fun c => ?_; exact .ret _)
  case getReal => (refine hr ?_; refine ends_begin fun c => ?_; exact ends_getVariables hm .float64 _ _ _ _)
  case getInteger => (refine hr ?_; refine ends_begin fun c => ?_; exact ends_getVariables hm .int32 _ _ _ _)
  case getBoolean => (refine hr ?_; refine ends_begin fun c => ?_; exact ends_getBooleanLoop hm _ _ _ _ _ _ _)
  case getString => (refine hr ?_; refine ends_begin fun c => ?_; exact ends_getVariables hm .string _ _ _ _)
  case setReal => (refine hr ?_; refine ends_begin fun c => ?_; exact ends_setVariables hm .float64 _ _ _ _)
  case setInteger => (refine hr ?_; refine ends_begin fun c => ?_; exact ends_setVariables hm .int32 _ _ _ _)
  case setBoolean => (refine hr ?_; refine ends_begin fun c => ?_; exact ends_setBooleanLoop hm _ _ _ _ _ _ _)
  case setString => (refine hr ?_; refine ends_begin fun c => ?_; exact ends_setVariables hm .string _ _ _ _)
  case getFMUstate => (refine hs ?_; refine ends_begin fun c => ?_; exact .ret _)
  case setFMUstate i => (refine hr ?_; refine ends_begin fun c => ?_; exact by cases w.slots i <;> exact .ret _)
  case freeFMUstate => (refine hs ?_; refine ends_begin fun c => ?_; exact .ret _)
  case serializedFMUstateSize n => (refine hr ?_; refine ends_begin fun c => ?_; exact by cases n <;> first | exact .ret _ | exact .ub)
  case serializeFMUstate i b n =>
    (refine hb ?_; refine ends_begin fun c => ?_; exact by
      cases w.slots i
      · exact .ret _
      · exact .ite (.ret _) (.bind (ends_store _ _) fun _ => .ret _))
  case deSerializeFMUstate => (refine hs ?_; refine ends_begin fun c => ?_; exact .ite (.ret _) (.bind (ends_load _) fun _ => .ret _))
  case getDirectionalDerivative =>
    (refine hr ?_; refine ends_begin fun c => ?_; exact ends_derivOuter hm (fun _ _ => .bind (.readPtr _ _) fun _ => .bind (.readPtr _ _) fun _ => .ret _) _ _ _ _ _ _ _)
  case setRealInputDerivatives => (refine hr ?_; refine ends_begin fun c => ?_; exact .ret _)
  case getRealOutputDerivatives =>
    (refine hr ?_; refine ends_begin fun c => ?_)
    split
    · next f hf => exact ends_outputDerivLoop (hm.outD f hf) _ _ _ _ _ _ _
    · exact .ret _
  case cancelStep => (refine hr ?_; refine ends_begin fun c => ?_; exact .ret _)
  case getStatus => (refine hr ?_; refine ends_begin fun c => ?_; exact ends_callLast (ends_statusAux _ _))
  case getRealStatus s v =>
    (refine hr ?_; refine ends_begin fun c => ?_; exact .ite (by cases v <;> first | exact .ret _ | exact .ub) (ends_callLast (ends_statusAux _ _)))
  case getIntegerStatus => (refine hr ?_; refine ends_begin fun c => ?_; exact ends_callLast (ends_statusAux _ _))
  case getBooleanStatus s v =>
    (refine hr ?_; refine ends_begin fun c => ?_; exact .ite (by cases v <;> first | exact .ret _ | exact .ub) (ends_callLast (ends_statusAux _ _)))
  case getStringStatus => (refine hr ?_; refine ends_begin fun c => ?_; exact ends_callLast (ends_statusAux _ _))
  case enterEventMode => (refine hr ?_; refine ends_begin fun c => ?_; exact .ret _)
  case newDiscreteStates i =>
    (refine hr ?_; refine ends_begin fun c => ?_)
    split
    · cases i <;> first | exact .ret _ | exact .ub
    · next eu he =>
      exact Ends.call (Ends.lift (hm.event eu he _ _)) fun _ _ _ => by cases i <;> first | exact .ret _ | exact .ub
  case enterContinuousTimeMode => (refine hr ?_; refine ends_begin fun c => ?_; exact .ret _)
  case completedIntegratorStep => (refine hr ?_; refine ends_begin fun c => ?_; exact .ite (.ret _) (.ret _))
  case setTime => (refine hr ?_; refine ends_begin fun c => ?_; exact .ret _)
  case setContinuousStates => (refine hr ?_; refine ends_begin fun c => ?_; exact ends_callLast (Ends.lift (hm.setX _ _ _ _)))
  case getDerivatives => (refine hr ?_; refine ends_begin fun c => ?_; exact ends_callLast (Ends.lift (hm.getDX _ _ _ _)))
  case getEventIndicators => (refine hr ?_; refine ends_begin fun c => ?_; exact ends_callLast (Ends.lift (hm.getZ _ _ _ _)))
  case getContinuousStates => (refine hr ?_; refine ends_begin fun c => ?_; exact ends_callLast (Ends.lift (hm.getX _ _ _ _)))
  case getNominals => (refine hr ?_; refine ends_begin fun c => ?_; exact ends_callLast (Ends.lift (hm.nominals _ _ _ _)))

end FMI2

namespace FMI3

omit [Arith F] in
theorem ends_begin {β : Type} {mask : Nat} {name : String} {c : Comp F D} {stop : β} {k : Comp F D → Res F D β}
    (h : ∀ c, (k c).Ends) : (begin mask name c stop k).Ends := Verif.ends_begin h

theorem ends_getClockLoop (hm : m.EndsAll) (vr : Ptr Nat) (n : Nat) : ∀ i c st v, (getClockLoop m vr n i c st v).Ends := by
  induction n with
  | zero => intro i c st v; exact .ret _
  | succ n ih =>
    intro i c st v
    refine .bind (.readPtr _ _) fun _ => .bind (.readPtr _ _) fun _ => .bind (Ends.lift (hm.getClock _ _ _ _)) fun x => ?_
    exact .bind (.writePtr _ _ _) fun _ => Ends.call (.ret _) fun _ _ _ => ih _ _ _ _

theorem ends_setClockLoop (hm : m.EndsAll) (vr : Ptr Nat) (v : Ptr Bool) (n : Nat) : ∀ i c st, (setClockLoop m vr v n i c st).Ends := by
  induction n with
  | zero => intro i c st; exact .ret _
  | succ n ih =>
    intro i c st
    refine .bind (.readPtr _ _) fun _ => .ite ?_ (ih _ _ _)
    exact .bind (.readPtr _ _) fun _ => Ends.call (Ends.lift (hm.activate _ _ _)) fun _ _ _ => ih _ _ _

theorem ends_getIntervalLoop (hm : m.EndsAll) (vr : Ptr Nat) (n : Nat) : ∀ i c st v, (getIntervalLoop m vr n i c st v).Ends := by
  induction n with
  | zero => intro i c st v; exact .ret _
  | succ n ih =>
    rintro i c st ⟨p, q⟩
    refine .bind (.readPtr _ _) fun _ => .bind (.readPtr _ _) fun _ => .bind (.readPtr _ _) fun _ => ?_
    refine .bind (Ends.lift (hm.getInterval _ _ _ _ _)) fun x => .bind (.writePtr _ _ _) fun _ => .bind (.writePtr _ _ _) fun _ => ?_
    exact Ends.call (.ret _) fun _ _ _ => ih _ _ _ _

/-- Every call but one of `fmi3DoStep` returns or executes undefined behaviour. -/
theorem step_ends [HasInf F] (hm : m.EndsAll) {op : Op F} (h : op.fn ≠ .doStep) (fuel : Nat) (w : World F D) :
    (step m fuel w op).Ends := by
  have hr : ∀ {β} {r : Res F D β} {out : β → Out F}, r.Ends → (w.run r out).Ends := fun h => .bind h fun _ => .ret _
  have hs : ∀ {i} {r : Res F D (Option (Comp F D))}, r.Ends → (w.runSlot i r).Ends := fun h => .bind h fun _ => .ret _
  have hb : ∀ {i} {r : Res F D (Option (Buffer F D))}, r.Ends → (w.runBuf i r).Ends := fun h => .bind h fun _ => .ret _
  cases op <;> dsimp only [step, FMI3.setDebugLogging, FMI3.enterInitializationMode, FMI3.exitInitializationMode, FMI3.enterEventMode, FMI3.terminate, FMI3.reset, FMI3.getVars, FMI3.getClock, FMI3.setVars, FMI3.setClock, FMI3.getFMUState, FMI3.setFMUState, FMI3.freeFMUState, FMI3.serializedFMUStateSize, FMI3.serializeFMUState, FMI3.deserializeFMUState, FMI3.getDirectionalDerivative, FMI3.getAdjointDerivative, FMI3.enterConfigurationMode, FMI3.exitConfigurationMode, FMI3.getIntervalDecimal, FMI3.updateDiscreteStates, FMI3.enterContinuousTimeMode, FMI3.completedIntegratorStep, FMI3.setTime, FMI3.setContinuousStates, FMI3.getDerivatives, FMI3.getEventIndicators, FMI3.getContinuousStates, FMI3.getNominals, FMI3.getNumberOfEventIndicators, FMI3.getNumberOfContinuousStates, FMI3.enterStepMode, FMI3.getOutputDerivatives, FMI3.activateModelPartition]
  case doStep => exact absurd rfl h
  case setDebugLogging => (refine hr ?_; refine ends_begin fun c => ?_; exact ends_callLast (ends_setDebugLogging _ _ _ _))
  case enterInitializationMode => (refine hr ?_; refine ends_begin fun c => ?_; exact .ret _)
  case exitInitializationMode =>
    (refine hr ?_; refine ends_begin fun c => ?_; exact ends_refresh hm fun c s => Ends.call (ends_configurate hm _) fun _ _ _ => .ret _)
  case enterEventMode => (refine hr ?_; refine ends_begin fun c => ?_; exact .ret _)
  case terminate => (refine hr ?_; refine ends_begin fun c => ?_; exact .ret _)
  case reset => (refine hr ?_; refine ends_begin fun c => ?_; exact .ret _)
  case get t vr n v nv =>
    (refine hr ?_; refine ends_begin fun c => ?_; refine .ite (.ret _) (ends_nonNull ?_))
    have key : ∀ c : Comp F D, (refresh m .OK c v fun c st =>
        getLoop m t vr nv n 0 c st v 0 >>- fun (c, st, (values, index)) =>
        if st = .Discard ∨ st = .Error ∨ st = .Fatal then .ret (c, st, values)
        else if t ≠ .binary ∧ index ≠ nv then fail c "Expected nValues = %zu but was %zu." values
        else .ret (c, st, values)).Ends := fun c =>
      ends_refresh hm fun c s => .bind (ends_getLoop hm _ _ _ _ _ _ _ _ _) fun _ => .ite (.ret _) (.ite (.ret _) (.ret _))
    exact .ite (ends_nonNull (key _)) (key _)
  case getClock => (refine hr ?_; refine ends_begin fun c => ?_; exact ends_getClockLoop hm _ _ _ _ _ _)
  case set t vr n v nv =>
    (refine hr ?_; refine ends_begin fun c => ?_; refine .ite (.ret _) (ends_nonNull ?_))
    exact .bind (ends_setLoop hm _ _ _ _ _ _ _ _ _) fun _ => .ite (.ret _) (.ite (.ret _) (.ret _))
  case setClock => (refine hr ?_; refine ends_begin fun c => ?_; exact ends_setClockLoop hm _ _ _ _ _ _)
  case getFMUState => (refine hs ?_; refine ends_begin fun c => ?_; exact .ret _)
  case setFMUState i => (refine hr ?_; refine ends_begin fun c => ?_; exact ends_callLast (by cases w.slots i <;> exact .ret _))
  case freeFMUState => (refine hs ?_; refine ends_begin fun c => ?_; exact .ret _)
  case serializedFMUStateSize n => (refine hr ?_; refine ends_begin fun c => ?_; exact by cases n <;> first | exact .ret _ | exact .ub)
  case serializeFMUState i b n =>
    (refine hb ?_; refine ends_begin fun c => ?_; exact by
      cases w.slots i
      · exact .ret _
      · exact .ite (.ret _) (.bind (ends_store _ _) fun _ => .ret _))
  case deserializeFMUState => (refine hs ?_; refine ends_begin fun c => ?_; exact .ite (.ret _) (.bind (ends_load _) fun _ => .ret _))
  case getDirectionalDerivative =>
    (refine hr ?_; refine ends_begin fun c => ?_; exact ends_derivOuter hm (fun _ _ => .bind (.readPtr _ _) fun _ => .bind (.readPtr _ _) fun _ => .ret _) _ _ _ _ _ _ _)
  case getAdjointDerivative =>
    (refine hr ?_; refine ends_begin fun c => ?_; exact ends_derivOuter hm (fun _ _ => .bind (.readPtr _ _) fun _ => .bind (.readPtr _ _) fun _ => .ret _) _ _ _ _ _ _ _)
  case enterConfigurationMode => (refine hr ?_; refine ends_begin fun c => ?_; exact .ret _)
  case exitConfigurationMode => (refine hr ?_; refine ends_begin fun c => ?_; exact .ite (ends_callLast (ends_configurate hm _)) (.ret _))
  case getIntervalDecimal => (refine hr ?_; refine ends_begin fun c => ?_; exact ends_getIntervalLoop hm _ _ _ _ _ _)
  case updateDiscreteStates o =>
    (refine hr ?_; refine ends_begin fun c => ?_)
    split
    · exact .ret _
    · next eu he => exact Ends.call (Ends.lift (hm.event eu he _ _)) fun _ _ _ => .ret _
  case enterContinuousTimeMode => (refine hr ?_; refine ends_begin fun c => ?_; exact .ret _)
  case completedIntegratorStep => (refine hr ?_; refine ends_begin fun c => ?_; exact ends_nonNull (ends_nonNull (.ret _)))
  case setTime => (refine hr ?_; refine ends_begin fun c => ?_; exact .ret _)
  case setContinuousStates => (refine hr ?_; refine ends_begin fun c => ?_; exact ends_callLast (Ends.lift (hm.setX _ _ _ _)))
  case getDerivatives => (refine hr ?_; refine ends_begin fun c => ?_; exact ends_callLast (Ends.lift (hm.getDX _ _ _ _)))
  case getEventIndicators => (refine hr ?_; refine ends_begin fun c => ?_; exact ends_callLast (Ends.lift (hm.getZ _ _ _ _)))
  case getContinuousStates => (refine hr ?_; refine ends_begin fun c => ?_; exact ends_callLast (Ends.lift (hm.getX _ _ _ _)))
  case getNominals => (refine hr ?_; refine ends_begin fun c => ?_; exact ends_callLast (Ends.lift (hm.nominals _ _ _ _)))
  case getNumberOfEventIndicators n => (refine hr ?_; refine ends_begin fun c => ?_; exact by cases n <;> first | exact .ret _ | exact .ub)
  case getNumberOfContinuousStates n => (refine hr ?_; refine ends_begin fun c => ?_; exact by cases n <;> first | exact .ret _ | exact .ub)
  case enterStepMode => (refine hr ?_; refine ends_begin fun c => ?_; exact .ret _)
  case getOutputDerivatives =>
    (refine hr ?_; refine ends_begin fun c => ?_)
    split
    · next f hf => exact ends_outputDerivLoop (hm.outD f hf) _ _ _ _ _ _ _
    · exact .ret _
  case activateModelPartition => (refine hr ?_; refine ends_begin fun c => ?_; exact ends_callLast (Ends.lift (hm.partition _ _ _ _)))
  case notImplemented => (refine hr ?_; exact .ret _)

end FMI3

end
end Verif
