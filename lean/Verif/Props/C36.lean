import Verif.Importer.Reconfiguration
import Verif.Props.C15
import Verif.Lemmas.VectorsRef
import Verif.Spec.SameReads
import Verif.Lemmas.Fixed

/-!
# C36: the dimensions of the StateSpace FMU

The dimensions never exceed 5 (`C36_bound_partial`). But they cannot be configured:
`fmi3SetUInt64` advances its index before it compares it with the number of values, so it returns
`fmi3Error` for every nonempty list of references (`C36_violated`), and with one value more than
there are references it nevertheless changes the dimensions (`C36_violated_applied`). Therefore
examples/cs_reconfiguration.c cannot succeed (`C36_violated_program`).
-/

set_option linter.unusedSectionVars false

namespace Verif.FMI3
variable {F D : Type} [Arith F] [HasInf F]

/-- **C36**, the part that holds: in every history a dimension that is read (UInt64 variables 1, 2 and 3)
is at most 5. -/
theorem C36_bound_partial {it : IType} {fuel : Nat} {w w' : World F (StateSpace.Data F)}
    (hw : Reachable StateSpace.model it w) {r : Nat} {x v : Int}
    (h : step StateSpace.model fuel w (.get .uint64 (some [r]) 1 (some [x]) 1) =
      .ret (w', .OK, .values .uint64 (some [v]))) : 0 ≤ v ∧ v ≤ 5 := by
  have hb : ∀ mv : MV F (StateSpace.Data F), StateSpace.InBounds mv → ∀ ctx mv' p i,
      StateSpace.getUInt64 ctx mv r (some [x]) 1 0 = .ret (mv', .OK, (p, i)) → ∃ v : Int, p = some [v] ∧ 0 ≤ v ∧ v ≤ 5 := by
    intro mv hmv ctx mv' p i e
    have hmv : mv.data.m ≤ 5 ∧ mv.data.n ≤ 5 ∧ mv.data.r ≤ 5 := by
      have h : StateSpace.inBounds mv.data = true := hmv
      simp only [StateSpace.inBounds, Bool.and_eq_true] at h
      exact ⟨of_decide_eq_true h.1.1, of_decide_eq_true h.1.2, of_decide_eq_true h.2⟩
    obtain ⟨h1, h2, h3⟩ := hmv
    simp only [StateSpace.getUInt64, assertNotNull, Option.isNone_some, Bool.false_eq_true, if_false, putScalar,
      assertNValues, Ptr.write, List.length_cons, List.length_nil, Nat.zero_add, Nat.lt_irrefl, Nat.zero_lt_one,
      if_true, Outcome.ret_bind, List.set_cons_zero, failM, gt_iff_lt] at e
    split at e <;> cases e <;> exact ⟨_, rfl, by omega, by omega⟩
  have hw := StateSpace.inBounds_reachable hw
  simp only [step, World.run] at h
  obtain ⟨⟨c1, s1, b1⟩, e1, e⟩ := Outcome.bind_eq_ret.1 h
  cases e
  simp only [getVars, begin, beginFunction] at e1
  have key : ∀ c : Comp F (StateSpace.Data F), StateSpace.InBounds c.mv →
      (getLoop StateSpace.model .uint64 (some [r]) 1 1 0 c .OK (some [x]) 0 >>- fun (c, st, (values, index)) =>
        if st = .Discard ∨ st = .Error ∨ st = .Fatal then .ret (c, st, values)
        else if VType.uint64 ≠ .binary ∧ index ≠ 1 then fail c "Expected nValues = %zu but was %zu." values
        else .ret (c, st, values)) = .ret (c1, .OK, some [v]) → 0 ≤ v ∧ v ≤ 5 := by
    intro c hc e
    obtain ⟨⟨c2, s2, p2, j⟩, e2, e⟩ := Outcome.bind_eq_ret.1 e
    simp only [getLoop, Ptr.read, List.getElem?_cons_zero, Outcome.ret_bind, call, Comp.lift] at e2
    obtain ⟨⟨c3, s3, p3⟩, e3, e4⟩ := Outcome.bind_eq_ret.1 e2
    obtain ⟨⟨mv, s5, p5⟩, e5, e6⟩ := Outcome.bind_eq_ret.1 e3
    cases e6
    rcases (RefFMU3.eff (F := F) .stateSpace).okOrError _ _ _ _ _ (.get e5) with rfl | rfl
    · obtain ⟨v', hv, h'⟩ := hb _ hc _ _ _ _ e5
      simp only [Status.rank, Nat.lt_irrefl, gt_iff_lt, if_false, getLoop] at e4
      cases e4
      simp only [reduceCtorEq, or_self, if_false] at e
      split at e
      · cases e
      · obtain ⟨p5, j5⟩ := p5
        cases hv
        cases e; exact h'
    · simp only [Status.rank] at e4
      cases e4; simp at e
  split at e1
  · simp only [Nat.one_ne_zero, if_false, assertNonNull, Option.isNone_some, Bool.false_eq_true,
      Nat.zero_lt_one, gt_iff_lt, if_true, refresh] at e1
    split at e1
    · simp only [call, Comp.lift] at e1
      obtain ⟨⟨c2, s2, b2⟩, e2, e3⟩ := Outcome.bind_eq_ret.1 e1
      obtain ⟨⟨mv, s3, b3⟩, e4, h5⟩ := Outcome.bind_eq_ret.1 e2
      cases h5
      have hb : StateSpace.InBounds mv := by
        simp only [StateSpace.model, StateSpace.calculateValues, StateSpace.guarded] at e4
        split at e4
        · cases e4; exact hw
        · cases e4
      rcases (RefFMU3.eff (F := F) .stateSpace).okOrError _ _ _ _ _ (.calc e4) with rfl | rfl
      · simp only [Status.rank] at e3
        exact key _ hb e3
      · simp [Status.rank] at e3
    · exact key _ hw e1
  · cases e1

/-- Non-vacuity: the start value is 3. -/
example : (Ex.runME3 StateSpace.model (Ex.init3 ++ [.get .uint64 (some [2]) 1 (some [0]) 1])).is (fun x =>
      x.2.drop 2 == [(.OK, .values .uint64 (some [3]))]) = true := by
  decide +kernel

theorem setUInt64_index {ctx : Ctx F} {mv mv' : MV F (StateSpace.Data F)} {r : Nat} {p : Ptr Int} {nv i j : Nat}
    (h : StateSpace.setUInt64 ctx mv r p nv i = .ret (mv', .OK, j)) : j + 1 ≤ nv := by
  simp only [StateSpace.setUInt64, assertNotNull, failM] at h
  split at h
  · cases h
  · split at h
    · cases h
    · obtain ⟨v, -, h⟩ := Outcome.bind_eq_ret.1 h
      have key : ∀ d : StateSpace.Data F, assertNValues ctx mv 1 nv (i + 1) (i + 1)
          (.ret ({ mv with data := d, isDirtyValues := true }, .OK, i + 1)) = .ret (mv', .OK, j) → j + 1 ≤ nv := by
        intro d h
        unfold assertNValues failM at h
        split at h
        · cases h
        · cases h; omega
      split at h
      · split at h
        · cases h
        · exact key _ h
      · split at h
        · cases h
        · exact key _ h
      · split at h
        · cases h
        · exact key _ h
      · cases h

theorem setLoop_uint64 {nv : Nat} {vr : Ptr Nat} {values : Ptr Int} (n i : Nat) (c : Comp F (StateSpace.Data F))
    (index : Nat) {c' s b}
    (h : setLoop StateSpace.model .uint64 vr values nv n i c .OK index = .ret (c', s, b)) :
    s = .Error ∨ s = .OK ∧ (n ≠ 0 → b + 1 ≤ nv) := by
  induction n generalizing c i index with
  | zero => simp only [setLoop] at h; cases h; exact .inr ⟨rfl, fun h => absurd rfl h⟩
  | succ n ih =>
    simp only [setLoop] at h
    obtain ⟨r, -, h⟩ := Outcome.bind_eq_ret.1 h
    simp only [call, Comp.lift] at h
    obtain ⟨⟨c1, s1, b1⟩, e1, h⟩ := Outcome.bind_eq_ret.1 h
    obtain ⟨⟨mv, s2, b2⟩, e2, h2⟩ := Outcome.bind_eq_ret.1 e1
    cases h2
    rcases (RefFMU3.eff (F := F) .stateSpace).okOrError _ _ _ _ _ (.set e2) with rfl | rfl
    · have hj := setUInt64_index e2
      simp only [Status.rank] at h
      rcases ih _ _ _ h with h' | ⟨h', h''⟩
      · exact .inl h'
      · refine .inr ⟨h', fun _ => ?_⟩
        cases n with
        | zero => simp only [gt_iff_lt, Nat.lt_irrefl, if_false, setLoop] at h; cases h; exact hj
        | succ n => exact h'' (by omega)
    · simp only [Status.rank] at h
      cases h; exact .inl rfl

/-- **C36 is violated**: in no state, for no dimension and no value does `fmi3SetUInt64` succeed. -/
theorem C36_violated {fuel : Nat} {w w' : World F (StateSpace.Data F)} {vr : Ptr Nat} {n : Nat} (hn : n ≠ 0)
    {values : Ptr Int} {nv : Nat} {s : Status} {o : Out F}
    (h : step StateSpace.model fuel w (.set .uint64 vr n values nv) = .ret (w', s, o)) : s = .Error := by
  simp only [step, World.run] at h
  obtain ⟨⟨c1, s1, b1⟩, e1, e⟩ := Outcome.bind_eq_ret.1 h
  cases e
  simp only [setVars, begin, beginFunction, if_neg hn, assertNonNull] at e1
  split at e1
  · split at e1
    · cases e1; rfl
    · obtain ⟨⟨c2, s2, j⟩, e2, h⟩ := Outcome.bind_eq_ret.1 e1
      rcases setLoop_uint64 _ _ _ _ e2 with rfl | ⟨rfl, hj⟩
      · simp at h; exact h.2.symm
      · have hj := hj hn
        have : j ≠ nv := by omega
        simp only [reduceCtorEq, or_self, if_false, if_pos this, fail] at h
        cases h; rfl
  · cases e1; rfl

/-- The states in which the call is refused include Configuration Mode, where it should succeed. -/
example : (Ex.runME3 StateSpace.model [.enterConfigurationMode, .set .uint64 (some [2]) 1 (some [2]) 1,
      .get .uint64 (some [2]) 1 (some [0]) 1]).is (fun x =>
      x.2 == [(.OK, .unit), (.Error, .unit), (.OK, .values .uint64 (some [3]))]) = true := by
  decide +kernel

/-- **C36 is violated**: a call with one value too many is refused, but changes the dimension. -/
theorem C36_violated_applied : (Ex.runME3 StateSpace.model
    [.enterConfigurationMode, .set .uint64 (some [2]) 1 (some [2, 0]) 2,
      .get .uint64 (some [2]) 1 (some [0]) 1]).is (fun x =>
      x.2 == [(.OK, .unit), (.Error, .unit), (.OK, .values .uint64 (some [2]))]) = true := by
  decide +kernel

/-- **C36 is violated**, for every dimension and value, in Configuration Mode and in Reconfiguration Mode: a call with one value too many is refused,
but changes the dimension. -/
theorem C36_violated_applied_always {it : IType} {fuel : Nat} {w : World F (StateSpace.Data F)} (hw : Reachable StateSpace.model it w)
    (hs : w.inst.ctx.state = .configurationMode ∨ w.inst.ctx.state = .reconfigurationMode) {r : Nat} (hr : r = 1 ∨ r = 2 ∨ r = 3)
    {v : Nat} (hv : v ≤ 5) (x : Int) : ∃ w', step StateSpace.model fuel w (.set .uint64 (some [r]) 1 (some [(v : Int), x]) 2) = .ret (w', .Error, .unit) ∧
      Reads StateSpace.model w' .uint64 r (v : Int) := by
  have hb : StateSpace.inBounds w.inst.mv.data = true := StateSpace.inBounds_reachable hw
  have hb' : w.inst.mv.data.m ≤ 5 ∧ w.inst.mv.data.n ≤ 5 ∧ w.inst.mv.data.r ≤ 5 := by
    have h := hb
    simp only [StateSpace.inBounds, Bool.and_eq_true] at h
    exact ⟨of_decide_eq_true h.1.1, of_decide_eq_true h.1.2, of_decide_eq_true h.2⟩
  have key : ∃ d : StateSpace.Data F, StateSpace.inBounds d = true ∧
      (∀ ctx (mv : MV F (StateSpace.Data F)) (y : Int), mv.data.m = d.m ∧ mv.data.n = d.n ∧ mv.data.r = d.r →
        StateSpace.getUInt64 ctx mv r (some [y]) 1 0 = .ret (mv, .OK, (some [(v : Int)], 1))) ∧
      StateSpace.setUInt64 w.inst.ctx w.inst.mv r (some [(v : Int), x]) 2 0 = .ret ({ w.inst.mv with data := d, isDirtyValues := true }, .OK, 1) := by
    have h1 : ∀ {p : Prop}, ¬ w.inst.ctx.state = .configurationMode → ¬ w.inst.ctx.state = .reconfigurationMode → p :=
      fun a b => hs.elim (fun h => absurd h a) (fun h => absurd h b)
    have h2 : ¬ (v > StateSpace.maxDim) := by unfold StateSpace.maxDim; omega
    rcases hr with rfl | rfl | rfl
    · refine ⟨{ w.inst.mv.data with m := v }, ?_, ?_, ?_⟩
      · simp [StateSpace.inBounds, StateSpace.maxDim, hb', hv]
      · intro ctx mv y e
        simp [StateSpace.getUInt64, assertNotNull, putScalar, assertNValues, Ptr.write, e.1]
      · simp [StateSpace.setUInt64, assertNotNull, Ptr.read, assertNValues, h2]
        exact h1
    · refine ⟨{ w.inst.mv.data with n := v }, ?_, ?_, ?_⟩
      · simp [StateSpace.inBounds, StateSpace.maxDim, hb', hv]
      · intro ctx mv y e
        simp [StateSpace.getUInt64, assertNotNull, putScalar, assertNValues, Ptr.write, e.2.1]
      · simp [StateSpace.setUInt64, assertNotNull, Ptr.read, assertNValues, h2]
        exact h1
    · refine ⟨{ w.inst.mv.data with r := v }, ?_, ?_, ?_⟩
      · simp [StateSpace.inBounds, StateSpace.maxDim, hb', hv]
      · intro ctx mv y e
        simp [StateSpace.getUInt64, assertNotNull, putScalar, assertNValues, Ptr.write, e.2.2]
      · simp [StateSpace.setUInt64, assertNotNull, Ptr.read, assertNValues, h2]
        exact h1
  obtain ⟨d, hd, hg, hset⟩ := key
  have ha : allowed w.inst.ctx (setMask .uint64) = true := by
    rcases hs with h | h <;> simp only [allowed, h] <;> decide +kernel
  have hset : (StateSpace.model (F := F)).set .uint64 w.inst.ctx w.inst.mv r (some [(v : Int), x]) 2 0 = .ret ({ w.inst.mv with data := d, isDirtyValues := true }, .OK, 1) := hset
  refine ⟨{ w with inst := ((({ w.inst with mv := { w.inst.mv with data := d, isDirtyValues := true } } : Comp F (StateSpace.Data F)).setDirty true).logError "Expected nValues = %zu but was %zu.").setState .terminated }, ?_, ?_⟩
  · simp only [step, World.run, setVars, begin, beginFunction, ha, if_true, Nat.one_ne_zero, if_false, assertNonNull, Option.isNone_some,
      Bool.false_eq_true, setLoop, Ptr.read, List.getElem?_cons_zero, Outcome.ret_bind, call, Comp.lift]
    rw [hset]
    simp [Outcome.ret_bind, Status.rank, fail]
  · intro fuel y
    have hx : (({ w.inst with mv := { w.inst.mv with data := d, isDirtyValues := true } } : Comp F (StateSpace.Data F)).setDirty true).logError "Expected nValues = %zu but was %zu." =
      { w.inst with mv := logError w.inst.ctx { w.inst.mv with data := d, isDirtyValues := true } "Expected nValues = %zu but was %zu." } := rfl
    have hl : ∀ (mv : MV F (StateSpace.Data F)) msg, (logError w.inst.ctx mv msg).data = mv.data ∧ (logError w.inst.ctx mv msg).isDirtyValues = mv.isDirtyValues := by
      intro mv msg; unfold logError; split <;> exact ⟨rfl, rfl⟩
    rw [hx]
    generalize hmv : logError w.inst.ctx { w.inst.mv with data := d, isDirtyValues := true } "Expected nValues = %zu but was %zu." = mv
    have h1 : mv.data = d := by rw [← hmv]; exact (hl _ _).1
    have h2 : mv.isDirtyValues = true := by rw [← hmv]; exact (hl _ _).2
    have hb : StateSpace.inBounds mv.data = true := by rw [h1]; exact hd
    have hg' := hg { w.inst.ctx with state := .terminated } (StateSpace.calcValues mv) y (by rw [← h1]; exact ⟨rfl, rfl, rfl⟩)
    have hm : (StateSpace.model (F := F)).get .uint64 = StateSpace.getUInt64 := rfl
    refine ⟨{ w with inst := ({ w.inst with mv := StateSpace.calcValues mv } : Comp F (StateSpace.Data F)).setState .terminated }, ?_⟩
    simp only [step, World.run, getVars, begin, beginFunction, Nat.one_ne_zero, if_false, assertNonNull, Option.isNone_some, Bool.false_eq_true,
      Nat.zero_lt_one, gt_iff_lt, if_true, refresh, Comp.setState, h2, call, Comp.lift]
    rw [if_pos (by simp only [allowed]; decide +kernel)]
    simp only [StateSpace.model, StateSpace.calculateValues, StateSpace.guarded, hb, if_true, Outcome.ret_bind, Status.rank, Comp.setDirty]
    simp only [Nat.not_lt_zero, if_false, getLoop, Ptr.read, List.getElem?_cons_zero, Outcome.ret_bind, call, Comp.lift]
    erw [hg']
    rfl

/-- Non-vacuity: Configuration Mode and Reconfiguration Mode are reached, here with the mode that `fmi3EnterConfigurationMode` leads to after the initialization. -/
example : (Ex.runME3 StateSpace.model [.enterConfigurationMode]).is (fun x => x.1.inst.ctx.state == .configurationMode) = true ∧
    (Ex.runME3 StateSpace.model (Ex.init3 ++ [.enterConfigurationMode])).is (fun x => x.1.inst.ctx.state == .reconfigurationMode) = true := by
  decide +kernel

example : (Ex.runME3 StateSpace.model (Ex.init3 ++ [.enterConfigurationMode, .set .uint64 (some [3]) 1 (some [5, 0]) 2,
      .get .uint64 (some [3]) 1 (some [0]) 1])).is (fun x =>
      x.2.drop 2 == [(.OK, .unit), (.Error, .unit), (.OK, .values .uint64 (some [5]))]) = true := by
  decide +kernel

/-- **C36 is violated** in the example program: examples/cs_reconfiguration.c always ends with `fmi3Error`, before the simulation begins, because
`fmi3SetUInt64` fails. -/
theorem C36_violated_program (fuel : Nat) (a u : List F) : Importer.Reconfiguration.reconfiguration fuel a u = .ret (.Error, []) := by
  have : ∃ c l, instantiateCoSimulation (StateSpace.model : Model F _) (some "instance1") (some (StateSpace.model : Model F _).token) none false false
      false true false true = (some c, l) ∧
    ∃ w o, step StateSpace.model fuel (.fresh c) .enterConfigurationMode = .ret (w, .OK, o) ∧
    ∃ w' o', step StateSpace.model fuel w (.set .uint64 (some [1, 2, 3]) 3 (some [2, 0, 2]) 3) = .ret (w', .Error, o') := by
    refine ⟨_, _, rfl, ?_⟩
    refine ⟨_, _, by with_unfolding_all rfl, ?_⟩
    exact ⟨_, _, by with_unfolding_all rfl⟩
  obtain ⟨c, l, e, w, o, e1, w', o', e2⟩ := this
  unfold Importer.Reconfiguration.reconfiguration
  rw [e]
  simp only [Importer.CoSim.CALLS, Importer.CoSim.calls, Importer.CoSim.api3, e1, e2, Outcome.ret_bind, if_true, reduceCtorEq, if_false,
    Importer.CoSim.tearDown, Status.rank, Nat.lt_irrefl]

theorem setUInt64_refused {ctx : Ctx F} {mv : MV F (StateSpace.Data F)} {r : Nat} {l : List Int} {nv i : Nat} {v : Int}
    (hv : l[i]? = some v) (h5 : 5 < v) {mv' s j}
    (h : StateSpace.setUInt64 ctx mv r (some l) nv i = .ret (mv', s, j)) : s = .Error ∧ mv'.data = mv.data := by
  have hl : ∀ msg, (logError ctx mv msg).data = mv.data := by
    intro msg; unfold logError; split <;> rfl
  have hv' : StateSpace.maxDim < v.toNat := by unfold StateSpace.maxDim; omega
  simp only [StateSpace.setUInt64, assertNotNull, Option.isNone_some, Bool.false_eq_true, if_false, Ptr.read, hv,
    Outcome.ret_bind, failM, gt_iff_lt, if_pos hv'] at h
  split at h
  · cases h; exact ⟨rfl, hl _⟩
  · split at h <;> cases h <;> exact ⟨rfl, hl _⟩

/-- **C36**, the part that holds: a dimension greater than 5 is refused and no variable changes, whatever
number of values is given. -/
theorem C36_refused_partial {fuel : Nat} {w w' : World F (StateSpace.Data F)} {r : Nat} {v : Int} (h5 : 5 < v)
    {l : List Int} {nv : Nat} {s : Status} {o : Out F}
    (h : step StateSpace.model fuel w (.set .uint64 (some [r]) 1 (some (v :: l)) nv) = .ret (w', s, o)) :
    s = .Error ∧ w'.inst.mv.data = w.inst.mv.data := by
  have hl : ∀ (c : Comp F (StateSpace.Data F)) msg, (c.logError msg).mv.data = c.mv.data := by
    intro c msg; unfold Comp.logError logError; split <;> rfl
  simp only [step, World.run] at h
  obtain ⟨⟨c1, s1, b1⟩, e1, e⟩ := Outcome.bind_eq_ret.1 h
  cases e
  simp only [setVars, begin, beginFunction, Nat.one_ne_zero, if_false, assertNonNull, Option.isNone_some,
    Bool.false_eq_true, setLoop, Ptr.read, List.getElem?_cons_zero, Outcome.ret_bind, call, Comp.lift] at e1
  split at e1
  · obtain ⟨⟨c2, s2, j⟩, e2, h⟩ := Outcome.bind_eq_ret.1 e1
    obtain ⟨⟨c3, s3, b3⟩, e3, e4⟩ := Outcome.bind_eq_ret.1 e2
    obtain ⟨⟨mv, s5, b5⟩, e5, e6⟩ := Outcome.bind_eq_ret.1 e3
    cases e6
    obtain ⟨rfl, hd⟩ := setUInt64_refused (by rfl) h5 e5
    simp only [Status.rank] at e4
    cases e4
    cases h
    exact ⟨rfl, hd⟩
  · cases e1
    exact ⟨rfl, hl _ _⟩

/-- Non-vacuity. -/
example : (Ex.runME3 StateSpace.model
    [.enterConfigurationMode, .set .uint64 (some [2]) 1 (some [6, 0]) 2,
      .get .uint64 (some [2]) 1 (some [0]) 1]).is (fun x =>
      x.2 == [(.OK, .unit), (.Error, .unit), (.OK, .values .uint64 (some [3]))]) = true := by
  decide +kernel

/-- Not in Configuration Mode or Reconfiguration Mode. -/
def Unconfigurable (ctx : Ctx F) : Prop := ctx.state ≠ .configurationMode ∧ ctx.state ≠ .reconfigurationMode

theorem StateSpace.fixed_dims :
    (StateSpace.model (F := F)).Fixed Unconfigurable fun d => (d.m, d.n, d.r) := by
  apply Model.Fixed.intro
  case get =>
    intro t ctx mv vr p n i hG
    cases hb : StateSpace.inBounds mv.data <;>
      cases t <;> simp only [StateSpace.model, StateSpace.getFloat64, StateSpace.getUInt64, StateSpace.calculateValues,
        StateSpace.guarded, StateSpace.putBlock, hb, if_true, if_false, Bool.false_eq_true, Outcome.ret_bind, Outcome.ub_bind] <;>
      mfixed
  case set =>
    intro t ctx mv vr p n i hG
    cases t <;> simp only [StateSpace.model, StateSpace.setFloat64, StateSpace.setUInt64, StateSpace.takeBlock,
      StateSpace.guarded] <;> mfixed
    all_goals (next h _ _ _ => simp [hG.1, hG.2] at h)
  case od => intro eu h; cases h
  case event => intro eu h; cases h; intros; unfold StateSpace.eventUpdate; mfixed
  case hcalc =>
    intro ctx mv _
    cases hb : StateSpace.inBounds mv.data <;>
      simp only [StateSpace.model, StateSpace.calculateValues, StateSpace.guarded, hb, if_true, if_false, Bool.false_eq_true,
        Outcome.ret_bind, Outcome.ub_bind] <;> mfixed
  case deriv =>
    intro ctx mv p n _
    cases hb : StateSpace.inBounds mv.data <;>
      simp only [StateSpace.model, StateSpace.calculateValues, StateSpace.guarded, StateSpace.checkNx, hb, if_true, if_false,
        Bool.false_eq_true, Outcome.ret_bind, Outcome.ub_bind] <;> mfixed
  all_goals
    intros
    simp only [StateSpace.model, StateSpace.guarded, StateSpace.checkNx]
    mfixed

theorem StateSpace.dims_inv (v : Nat × Nat × Nat) :
    CallInvX (fun fn => fn = .enterConfigurationMode ∨ fn = .reset ∨ fn = .setFMUState) (fun _ => True)
      (StateSpace.model (F := F)) (fun _ => True)
      fun c => Unconfigurable c.ctx ∧ (c.mv.data.m, c.mv.data.n, c.mv.data.r) = v := by
  have q : StepQuiet (StateSpace.model (F := F))
      fun c => Unconfigurable c.ctx ∧ (c.mv.data.m, c.mv.data.n, c.mv.data.r) = v :=
    { lift := fun hp _ e => ⟨hp.1, (StateSpace.fixed_dims _ _ _ _ _ hp.1 e).trans hp.2⟩
      log := fun msg hp => ⟨hp.1, by simp only [Comp.logError, logError]; split <;> exact hp.2⟩
      dirty := fun _ hp => hp
      adv := fun hp _ => hp
      iu := fun hp _ => hp
      ncp := fun _ hp => hp
      nx := fun hp => hp
      nz := fun hp => hp
      x := fun _ hp => hp
      dx := fun _ hp => hp
      z := fun _ hp => hp
      prez := fun _ hp => hp }
  exact
    { toQuiet := { q with lift := fun hp _ e => q.lift hp trivial e }
      calls := fun _ _ _ _ => trivial
      step := fun _ => q.toDo
      nx := fun _ _ h => h
      nz := fun _ _ h => h
      prez := fun _ _ _ h => h
      term := fun h => ⟨⟨by simp [Comp.setState], by simp [Comp.setState]⟩, h.2⟩
      enterInit := fun _ _ _ _ h _ => ⟨⟨by simp [Comp.setState], by simp [Comp.setState]⟩, h.2⟩
      enterConfig := fun h => absurd (.inl rfl) h
      exitConfig := fun _ _ h e => by
        simp only [List.mem_cons, List.not_mem_nil, or_false] at e
        rcases e with e | e
        · exact absurd e h.1.1
        · exact absurd e h.1.2
      reset := fun h => absurd (.inr (.inl rfl)) h
      restore := fun h => absurd (.inr (.inr rfl)) h
      enterEvent := fun _ _ h _ => ⟨⟨by simp [Comp.setState], by simp [Comp.setState]⟩, h.2⟩
      enterCT := fun _ _ h _ => ⟨⟨by simp [Comp.setState], by simp [Comp.setState]⟩, h.2⟩
      setTime := fun _ _ _ h _ => h
      exitInit := fun _ c h e => by
        refine ⟨?_, h.2⟩
        simp only [Unconfigurable, Comp.setState, stateAfterInit]
        cases c.ctx.typ <;> cases c.eventModeUsed <;> simp
      enterStep := fun _ _ h _ => ⟨⟨by simp [Comp.setState], by simp [Comp.setState]⟩, h.2⟩ }

/-- **C36**, the part that holds: outside Configuration Mode and Reconfiguration Mode no history of calls changes a
dimension, whether the calls succeed or not. (Calls of `fmi3Reset` and `fmi3SetFMUState` bring back other
dimensions, and `fmi3EnterConfigurationMode` leads to Configuration Mode.) -/
theorem C36_fixed_partial {fuel : Nat} {w w' : World F (StateSpace.Data F)}
    (hc : w.inst.ctx.state ≠ .configurationMode) (hr : w.inst.ctx.state ≠ .reconfigurationMode)
    {a b c a' b' c' : Nat}
    (h1 : Reads StateSpace.model w .uint64 1 (a : Int)) (h2 : Reads StateSpace.model w .uint64 2 (b : Int))
    (h3 : Reads StateSpace.model w .uint64 3 (c : Int)) {ops : List (Op F)} {outs}
    (hops : ∀ op ∈ ops, op.fn ≠ .enterConfigurationMode ∧ op.fn ≠ .reset ∧ op.fn ≠ .setFMUState)
    (e : run StateSpace.model fuel w ops = .ret (w', outs))
    (h1' : Reads StateSpace.model w' .uint64 1 (a' : Int)) (h2' : Reads StateSpace.model w' .uint64 2 (b' : Int))
    (h3' : Reads StateSpace.model w' .uint64 3 (c' : Int)) : a' = a ∧ b' = b ∧ c' = c := by
  obtain ⟨rfl, rfl, rfl⟩ := StateSpace.reads_dims h1 h2 h3
  obtain ⟨rfl, rfl, rfl⟩ := StateSpace.reads_dims h1' h2' h3'
  have := run_keepX (RefFMU3.eff (F := F) .stateSpace).okOrError (StateSpace.dims_inv _) (fun _ _ h => h) (fuel := fuel)
    ops (w := w) ⟨⟨hc, hr⟩, rfl⟩ (fun op h => by simpa [not_or] using hops op h) _ e
  simpa using this.2

/-- Non-vacuity: in the mode Instantiated a call with one value too many is refused and does not change the dimension
(cf. `C36_violated_applied`). -/
example : (Ex.runME3 StateSpace.model
    [.get .uint64 (some [2]) 1 (some [0]) 1, .set .uint64 (some [2]) 1 (some [2, 0]) 2,
      .get .uint64 (some [2]) 1 (some [0]) 1]).is (fun x =>
      x.2 == [(.OK, .values .uint64 (some [3])), (.Error, .unit), (.OK, .values .uint64 (some [3]))]) = true := by
  decide +kernel

end Verif.FMI3
