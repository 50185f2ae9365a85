import Verif.Props.C36
import Verif.Lemmas.Ready
import Verif.Lemmas.Traj
import Verif.Lemmas.Readable

/-!
# The dimensions of StateSpace are 3 until a call has failed

`frozen` is StateSpace without `fmi3SetUInt64`; all other calls behave alike, and `fmi3SetUInt64` fails or does nothing.
-/

set_option linter.unusedSectionVars false

namespace Verif
variable {F : Type} [Arith F] [HasInf F]

namespace StateSpace

/-- StateSpace with a stub for `fmi3SetUInt64`. -/
def frozen : Model F (Data F) :=
  { (model : Model F (Data F)) with
    set := fun t => match t with
      | .float64 => setFloat64
      | t => setStub t }

theorem setLoop_congr {D : Type} {m m' : Model F D} {t : VType} (h : m'.set t = m.set t) (vr : Ptr Nat) (values : Ptr (t.Val F)) (nv : Nat) :
    ∀ (n i : Nat) (c : Comp F D) (st : Status) (index : Nat), setLoop m' t vr values nv n i c st index = setLoop m t vr values nv n i c st index := by
  intro n
  induction n with
  | zero => intros; rfl
  | succ n ih => intros; simp only [setLoop, ih, h]

theorem frozen_getLoop (t : VType) (vr : Ptr Nat) (nv : Nat) : ∀ (n i : Nat) (c : Comp F (Data F)) (st : Status) (values : Ptr (t.Val F)) (index : Nat),
    getLoop frozen t vr nv n i c st values index = getLoop model t vr nv n i c st values index := by
  intro n
  induction n with
  | zero => intros; rfl
  | succ n ih => intros; simp only [getLoop, ih]; rfl

theorem frozen_getClockLoop (vr : Ptr Nat) : ∀ (n i : Nat) (c : Comp F (Data F)) (st : Status) (values : Ptr Bool),
    FMI3.getClockLoop frozen vr n i c st values = FMI3.getClockLoop model vr n i c st values := by
  intro n
  induction n with
  | zero => intros; rfl
  | succ n ih => intros; simp only [FMI3.getClockLoop, ih]; rfl

theorem frozen_setClockLoop (vr : Ptr Nat) (values : Ptr Bool) : ∀ (n i : Nat) (c : Comp F (Data F)) (st : Status),
    FMI3.setClockLoop frozen vr values n i c st = FMI3.setClockLoop model vr values n i c st := by
  intro n
  induction n with
  | zero => intros; rfl
  | succ n ih => intros; simp only [FMI3.setClockLoop, ih]; rfl

theorem frozen_getIntervalLoop (vr : Ptr Nat) : ∀ (n i : Nat) (c : Comp F (Data F)) (st : Status) (p : Ptr F × Ptr Int),
    FMI3.getIntervalLoop frozen vr n i c st p = FMI3.getIntervalLoop model vr n i c st p := by
  intro n
  induction n with
  | zero => intros; rfl
  | succ n ih => intros; simp only [FMI3.getIntervalLoop, ih]; rfl

theorem frozen_derivInner (pair : Nat → Outcome (Nat × Nat)) (seed : Ptr F) : ∀ (n i : Nat) (c : Comp F (Data F)) (st : Status) (a : F),
    derivInner frozen pair seed n i c st a = derivInner model pair seed n i c st a := by
  intro n
  induction n with
  | zero => intros; rfl
  | succ n ih => intros; simp only [derivInner, ih]; rfl

theorem frozen_derivOuter (pair : Nat → Nat → Outcome (Nat × Nat)) (seed : Ptr F) (k : Nat) : ∀ (n i : Nat) (c : Comp F (Data F)) (st : Status) (p : Ptr F),
    derivOuter frozen pair seed k n i c st p = derivOuter model pair seed k n i c st p := by
  intro n
  induction n with
  | zero => intros; rfl
  | succ n ih => intros; simp only [derivOuter, ih, frozen_derivInner]

theorem frozen_doStepLoop (next : F) (out : FMI3.StepOut F) : ∀ (fuel : Nat) (c : Comp F (Data F)) (st : Status) (ehn : Bool),
    FMI3.doStepLoop frozen next out fuel c st ehn = FMI3.doStepLoop model next out fuel c st ehn := by
  intro n
  induction n with
  | zero => intros; rfl
  | succ n ih => intros; simp only [FMI3.doStepLoop, ih]; rfl

theorem frozen_step (fuel : Nat) (w : FMI3.World F (Data F)) (op : FMI3.Op F) (h : op.fn ≠ .set .uint64) :
    FMI3.step frozen fuel w op = FMI3.step model fuel w op := by
  cases op
  case set t vr n v nv =>
    have key : ∀ {t : VType}, (frozen (F := F)).set t = (model (F := F)).set t → ∀ v,
        FMI3.step frozen fuel w (.set t vr n v nv) = FMI3.step model fuel w (.set t vr n v nv) := by
      intro t ht v
      have : FMI3.setVars (frozen (F := F)) t w.inst vr n v nv = FMI3.setVars (model (F := F)) t w.inst vr n v nv := by
        simp only [FMI3.setVars, setLoop_congr ht]
      simp only [FMI3.step, this]
    cases t <;> first
      | exact absurd rfl h
      | exact key rfl v
  case get => simp only [FMI3.step, FMI3.getVars, frozen_getLoop]; rfl
  case getClock => simp only [FMI3.step, FMI3.getClock, frozen_getClockLoop]
  case setClock => simp only [FMI3.step, FMI3.setClock, frozen_setClockLoop]
  case getDirectionalDerivative => simp only [FMI3.step, FMI3.getDirectionalDerivative, frozen_derivOuter]
  case getAdjointDerivative => simp only [FMI3.step, FMI3.getAdjointDerivative, frozen_derivOuter]
  case getIntervalDecimal => simp only [FMI3.step, FMI3.getIntervalDecimal, frozen_getIntervalLoop]
  case doStep => simp only [FMI3.step, FMI3.doStep, frozen_doStepLoop]
  all_goals rfl

theorem frozen_mstep {f ctx} {mv mv' : MV F (Data F)} {s} (h : MStep frozen f ctx mv mv' s) :
    MStep model f ctx mv mv' s ∨ (s = .Error ∧ mv'.data = mv.data) := by
  cases h with
  | @set t vr p n i _ _ _ _ b e =>
    cases t
    case uint64 =>
      right
      change setStub .uint64 ctx mv vr p n i = _ at e
      simp only [setStub, failM] at e
      cases e
      refine ⟨rfl, ?_⟩
      unfold logError
      split <;> rfl
    all_goals exact .inl (.set (vr := vr) (p := p) (n := n) (i := i) (b := b) e)
  | «calc» e => exact .inl (.calc e)
  | get e => exact .inl (.get e)
  | event h e => exact .inl (.event h e)
  | getStates e => exact .inl (.getStates e)
  | nominals e => exact .inl (.nominals e)
  | setStates e => exact .inl (.setStates e)
  | deriv e => exact .inl (.deriv e)
  | indicators e => exact .inl (.indicators e)
  | @partialDeriv u k _ _ _ _ _ _ e => exact .inl (.partialDeriv (u := u) (k := k) e)
  | outDeriv h e => exact .inl (.outDeriv h e)
  | activate e => cases e; exact .inr ⟨rfl, rfl⟩
  | getClock e => cases e; exact .inr ⟨rfl, rfl⟩
  | getInterval e => cases e; exact .inr ⟨rfl, rfl⟩
  | partition e => cases e; exact .inr ⟨rfl, rfl⟩

theorem frozen_ok : OkOrError (frozen (F := F)) := by
  intro f ctx mv mv' s h
  rcases frozen_mstep h with h | ⟨rfl, -⟩
  · exact RefFMU3.stateSpace.eff.okOrError _ _ _ _ _ h
  · exact .inr rfl

/-- The dimensions. -/
def dims3 (d : Data F) : Prop := d.m = 3 ∧ d.n = 3 ∧ d.r = 3

theorem frozen_fixed : (frozen (F := F)).Fixed (fun _ => True) fun d => (d.m, d.n, d.r) := by
  apply Model.Fixed.intro
  case get =>
    intro t ctx mv vr p n i hG
    cases hb : StateSpace.inBounds mv.data <;>
      cases t <;> simp only [frozen, StateSpace.model, StateSpace.getFloat64, StateSpace.getUInt64, StateSpace.calculateValues,
        StateSpace.guarded, StateSpace.putBlock, hb, if_true, if_false, Bool.false_eq_true, Outcome.ret_bind, Outcome.ub_bind] <;>
      mfixed
  case set =>
    intro t ctx mv vr p n i hG
    cases t <;> simp only [frozen, StateSpace.setFloat64, StateSpace.takeBlock,
      StateSpace.guarded] <;> mfixed
  case od => intro eu h; cases h
  case event => intro eu h; cases h; intros; unfold StateSpace.eventUpdate; mfixed
  case hcalc =>
    intro ctx mv _
    cases hb : StateSpace.inBounds mv.data <;>
      simp only [frozen, StateSpace.model, StateSpace.calculateValues, StateSpace.guarded, hb, if_true, if_false, Bool.false_eq_true,
        Outcome.ret_bind, Outcome.ub_bind] <;> mfixed
  case deriv =>
    intro ctx mv p n _
    cases hb : StateSpace.inBounds mv.data <;>
      simp only [frozen, StateSpace.model, StateSpace.calculateValues, StateSpace.guarded, StateSpace.checkNx, hb, if_true, if_false,
        Bool.false_eq_true, Outcome.ret_bind, Outcome.ub_bind] <;> mfixed
  all_goals
    intros
    simp only [frozen, StateSpace.model, StateSpace.guarded, StateSpace.checkNx]
    mfixed

theorem frozen_dims {f ctx} {mv mv' : MV F (Data F)} {s} (h : MStep frozen f ctx mv mv' s) (hd : dims3 mv.data) :
    dims3 mv'.data := by
  have := frozen_fixed _ _ _ _ _ trivial h
  simp only [Prod.mk.injEq] at this
  exact ⟨this.1.trans hd.1, this.2.1.trans hd.2.1, this.2.2.trans hd.2.2⟩

/-- After an error, or the dimensions are 3. -/
def Dim (c : Comp F (Data F)) : Prop := c.ctx.state = .terminated ∨ dims3 c.mv.data

theorem dims3_log {c : Comp F (Data F)} (msg) (h : dims3 c.mv.data) : dims3 (c.logError msg).mv.data := by
  unfold Comp.logError logError; split <;> exact h

theorem Dim.stepQuiet : StepQuiet (frozen (F := F)) Dim where
  lift h _ e := h.imp id (frozen_dims e)
  log msg h := h.imp id (dims3_log msg)
  dirty _ h := h
  adv h _ := h
  iu h _ := h
  ncp _ h := h
  nx h := h
  nz h := h
  x _ h := h
  dx _ h := h
  z _ h := h
  prez _ h := h

theorem Dim.histInv : FMI3.HistInv (frozen (F := F)) Dim :=
  { Dim.stepQuiet with
    term := fun _ => .inl rfl
    enterInit := fun _ _ h e => .inr (h.resolve_left (by simp [e]))
    enterConfig := fun h e => .inr (h.resolve_left (by
      simp only [List.mem_cons, List.not_mem_nil, or_false] at e
      rcases e with e | e | e | e <;> simp [e]))
    exitConfig := fun h e => .inr (h.resolve_left (by
      simp only [List.mem_cons, List.not_mem_nil, or_false] at e
      rcases e with e | e <;> simp [e]))
    reset := fun _ => Outcome.all_ret.2 (.inr ⟨rfl, rfl, rfl⟩)
    restore := fun _ h => h.imp id id
    enterEvent := fun h e => .inr (h.resolve_left (by rcases e with e | e <;> simp [e]))
    enterCT := fun h e => .inr (h.resolve_left (by simp [e]))
    setTime := fun _ h _ => h
    exitInit := fun h e => .inr (h.resolve_left (by simp [e]))
    enterStep := fun h e => .inr (h.resolve_left (by rcases e with e | e <;> simp [e]))
    flags := fun _ _ h => h }

/-- `fmi3SetUInt64` ends with an error or leaves the instance as it is. -/
theorem set_uint64 {fuel : Nat} {w w' : FMI3.World F (Data F)} {vr n v nv s o}
    (e : FMI3.step model fuel w (.set .uint64 vr n v nv) = .ret (w', s, o)) :
    w' = { w with inst := w'.inst } ∧ (w'.inst.ctx.state = .terminated ∨ w'.inst = w.inst) := by
  constructor
  · simp only [FMI3.step, FMI3.World.run] at e
    obtain ⟨⟨c1, s1, b1⟩, -, e⟩ := Outcome.bind_eq_ret.1 e
    cases e; rfl
  · by_cases hn : n = 0
    · subst hn
      simp only [FMI3.step, FMI3.World.run] at e
      obtain ⟨⟨c1, s1, b1⟩, e1, e⟩ := Outcome.bind_eq_ret.1 e
      cases e
      simp only [FMI3.setVars, FMI3.begin, beginFunction, if_true] at e1
      split at e1 <;> cases e1
      · exact .inr rfl
      · exact .inl rfl
    · cases FMI3.C36_violated hn e
      have := FMI3.step_mode' RefFMU3.stateSpace.eff.okOrError _ e
      rcases this.2 with h | h | h
      · exact .inl h.2
      · exact absurd h.1 (by simp)
      · exact absurd h.1 (by simp [FMI3.Op.unsupported])

theorem Dim.step {fuel : Nat} {w w' : FMI3.World F (Data F)} {op s o} (h : FMI3.WInv Dim w)
    (e : FMI3.step model fuel w op = .ret (w', s, o)) : FMI3.WInv Dim w' := by
  by_cases hop : op.fn = .set .uint64
  · cases op <;> simp only [FMI3.Op.fn, FMI3.Fn.set.injEq, reduceCtorEq] at hop
    subst hop
    obtain ⟨h1, h2⟩ := set_uint64 e
    refine ⟨?_, by rw [h1]; exact h.slots, by rw [h1]; exact h.bufs⟩
    rcases h2 with h2 | h2
    · exact .inl h2
    · rw [h2]; exact h.inst
  · rw [← frozen_step fuel w op hop] at e
    exact FMI3.step_inv frozen_ok Dim.histInv h op _ e

theorem new_dims {t : IType} {c : Comp F (Data F)} (h : FMI3.New (model : Model F (Data F)) t c) : dims3 c.mv.data := by
  obtain ⟨_, _, _, _, _, _, _, c₀, _, _, _, _, _, _, e, rfl⟩ := h.created
  have e := createModelInstance_mv e
  simp only; rw [e]; exact ⟨rfl, rfl, rfl⟩

/-- In every history the dimensions are 3 or a call has failed. -/
theorem Dim.reachable {t : IType} {w : FMI3.World F (Data F)} (h : FMI3.Reachable model t w) : Dim w.inst := by
  obtain ⟨c, w₀, fuel, ops, outs, h1, h2, h3⟩ := h
  have h0 : FMI3.WInv Dim w₀ := .initial h2 (.inr (new_dims h1))
  clear h1 h2
  induction ops generalizing w₀ outs with
  | nil => cases h3; exact h0.inst
  | cons op ops ih =>
    unfold FMI3.run at h3
    obtain ⟨⟨w1, s, o'⟩, e1, e⟩ := Outcome.bind_eq_ret.1 h3
    obtain ⟨⟨w2, l⟩, e2, e⟩ := Outcome.bind_eq_ret.1 e
    cases e
    exact ih _ _ e2 (Dim.step h0 e1)

/-- After an error, or the dimensions are 3 and, after the initialization, so is the number of states of the solver. -/
def DimX (c : Comp F (Data F)) : Prop := c.ctx.state = .terminated ∨ dims3 c.mv.data ∧ (c.ctx.state.early ∨ c.nx = 3)

theorem DimX.histInv : FMI3.HistInv₀ (frozen (F := F)) DimX where
  lift h _ e := h.imp id (fun h => ⟨frozen_dims e h.1, h.2⟩)
  log msg h := h.imp id (fun h => ⟨dims3_log msg h.1, h.2⟩)
  dirty _ h := h
  adv h _ := h
  iu h _ := h
  ncp _ h := h
  nx h := h.imp id fun h => ⟨h.1, .inr h.1.2.1⟩
  nz h := h
  x _ h := h
  dx _ h := h
  z _ h := h
  prez _ h := h
  term := fun _ => .inl rfl
  enterInit := fun _ _ h e => .inr ⟨(h.resolve_left (by simp [e])).1, .inl (by simp [Comp.setState, Mode.early])⟩
  enterConfig := fun {c} h e => by
    have h := h.resolve_left (by
      simp only [List.mem_cons, List.not_mem_nil, or_false] at e
      rcases e with e | e | e | e <;> simp [e])
    refine .inr ⟨h.1, ?_⟩
    by_cases hc : c.ctx.state = .instantiated
    · exact .inl (by simp [Comp.setState, hc, Mode.early])
    · refine .inr (h.2.resolve_left ?_)
      simp only [List.mem_cons, List.not_mem_nil, or_false, hc, false_or] at e
      rcases e with e | e | e <;> simp [e, Mode.early]
  exitConfig := fun {c} h e => by
    have h := h.resolve_left (by
      simp only [List.mem_cons, List.not_mem_nil, or_false] at e
      rcases e with e | e <;> simp [e])
    refine .inr ⟨h.1, ?_⟩
    by_cases hc : c.ctx.state = .configurationMode
    · exact .inl (by simp [Comp.setState, FMI3.stateAfterConfig, hc, Mode.early])
    · refine .inr (h.2.resolve_left ?_)
      simp only [List.mem_cons, List.not_mem_nil, or_false, hc, false_or] at e
      simp [e, Mode.early]
  reset := fun _ => Outcome.all_ret.2 (.inr ⟨⟨rfl, rfl, rfl⟩, .inl (by simp [Comp.setState, Comp.setTime, Comp.setDirty, Mode.early])⟩)
  restore := fun _ h => h.imp id id
  enterEvent := fun h e => .inr (by
    have h := h.resolve_left (by rcases e with e | e <;> simp [e])
    exact ⟨h.1, .inr (h.2.resolve_left (by rcases e with e | e <;> simp [e, Mode.early]))⟩)
  enterCT := fun h e => .inr (by
    have h := h.resolve_left (by simp [e])
    exact ⟨h.1, .inr (h.2.resolve_left (by simp [e, Mode.early]))⟩)
  setTime := fun _ h _ => h
  flags := fun _ _ h => h

theorem configurate_dims {c : Comp F (Data F)} (hd : dims3 c.mv.data) :
    Outcome.All (call .OK (configurate frozen c) id fun c st _ => .ret (c, st, ())) fun x => DimX (F := F) x.1 := by
  have : configurate frozen c = .ret ({ c with nx := 3 }, .OK, ()) := by
    show Outcome.ret ({ c with nx := c.mv.data.n }, _, _) = _
    rw [hd.2.1]
  rw [this]
  exact Outcome.all_ret.2 (.inr ⟨hd, .inr rfl⟩)

theorem DimX.step {fuel : Nat} {w w' : FMI3.World F (Data F)} {op s o} (h : FMI3.WInv DimX w)
    (e : FMI3.step model fuel w op = .ret (w', s, o)) (hop : op.fn = .enterStepMode → w.inst.ctx.state ≠ .initializationMode) :
    FMI3.WInv DimX w' := by
  by_cases hs : op.fn = .set .uint64
  · cases op <;> simp only [FMI3.Op.fn, FMI3.Fn.set.injEq, reduceCtorEq] at hs
    subst hs
    obtain ⟨h1, h2⟩ := set_uint64 e
    refine ⟨?_, by rw [h1]; exact h.slots, by rw [h1]; exact h.bufs⟩
    rcases h2 with h2 | h2
    · exact .inl h2
    · rw [h2]; exact h.inst
  · rw [← frozen_step fuel w op hs] at e
    refine FMI3.step_inv₀ frozen_ok DimX.histInv h op (fun hx => ?_) _ e
    cases op <;> simp only [FMI3.Op.fn, reduceCtorEq, or_self] at hx
    case enterStepMode =>
      simp only [FMI3.step]
      suffices (FMI3.enterStepMode w.inst).All (fun x => DimX x.1) from
        Outcome.All.bind this fun x hx => Outcome.all_ret.2 hx
      unfold FMI3.enterStepMode FMI3.begin beginFunction
      split
      · next ha =>
        have hm := ((FMI3.allowed_initEvent _).1 ha).resolve_left (hop rfl)
        have := h.inst.resolve_left (by simp [hm])
        exact Outcome.all_ret.2 (.inr ⟨this.1, .inr (this.2.resolve_left (by simp [hm, Mode.early]))⟩)
      · exact Outcome.all_ret.2 (.inl rfl)
    simp only [FMI3.step]
    suffices (FMI3.exitInitializationMode frozen w.inst).All (fun x => DimX x.1) from
      Outcome.All.bind this fun x hx => Outcome.all_ret.2 hx
    unfold FMI3.exitInitializationMode FMI3.begin beginFunction
    split
    · next ha =>
      have hd := (h.inst.resolve_left (by rw [(FMI3.allowed_init _).1 ha]; simp)).1
      unfold refresh
      simp only
      split
      · unfold call
        have : (w.inst.lift (frozen.calculateValues w.inst.ctx w.inst.mv)).All
            fun x => (x.2.1 = .OK ∨ x.2.1 = .Error) ∧ dims3 x.1.mv.data := by
          rintro ⟨c1, s, u⟩ e
          obtain ⟨mv, e', rfl⟩ := lift_eq_ret.1 e
          exact ⟨frozen_ok _ _ _ _ _ (.calc e'), frozen_dims (.calc e') hd⟩
        refine Outcome.All.bind this ?_
        rintro ⟨c1, s, u⟩ ⟨rfl | rfl, hd⟩
        · exact configurate_dims hd
        · exact Outcome.all_ret.2 (.inl rfl)
      · exact configurate_dims hd
    · exact Outcome.all_ret.2 (.inl rfl)

/-- In every history without `fmi3EnterStepMode` in Initialization Mode. -/
theorem DimX.reachable {t : IType} {w : FMI3.World F (Data F)} (h : FMI3.ReachableProper model t w) : DimX w.inst := by
  suffices FMI3.WInv DimX w from this.inst
  induction h with
  | new h1 h2 => exact .initial h2 (.inr ⟨new_dims h1, .inl (by simp [h1.ctx.2.1, Mode.early])⟩)
  | call h e hop ih => exact DimX.step ih e hop

end StateSpace
end Verif
