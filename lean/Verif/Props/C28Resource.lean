import Verif.Props.C28
import Verif.Props.C40
import Verif.Props.C54

/-!
# C28 for the Resource FMU
-/

set_option linter.unusedSectionVars false

namespace Verif.Resource
open Verif Spec
variable {F : Type} [Arith F] [HasInf F] {fs fs' : FileSystem} {loc loc' : Ptr UInt8}

/-- An FMI 2.0 instance for Co-Simulation with the resource location `loc`, after any calls. -/
def At2 (fs : FileSystem) (loc : Ptr UInt8) (w : FMI2.World F Data) : Prop :=
  ∃ name guid functions loggingOn mem c l w₀ fuel ops outs,
    FMI2.instantiate (model false fs) name .coSimulation guid loc functions loggingOn mem = (some c, l) ∧ w₀.Initial c ∧
    FMI2.run (model false fs) fuel w₀ ops = .ret (w, outs)

/-- An FMI 3.0 instance for Co-Simulation (without Event Mode and early return) with the resource path `loc`, after any calls
except `fmi3EnterStepMode` in Initialization Mode. -/
def At3 (fs : FileSystem) (loc : Ptr UInt8) (w : FMI3.World F Data) : Prop :=
  ∃ name token loggingOn logger iu mem c l w₀,
    FMI3.instantiateCoSimulation (model true fs) name token loc loggingOn false false logger iu mem = (some c, l) ∧
    w₀.Initial c ∧
    FMI3.Calls (model true fs) (fun w op => op.fn = .enterStepMode → w.inst.ctx.state ≠ .initializationMode) w₀ w

theorem At2.reachable {w : FMI2.World F Data} (h : At2 fs loc w) : FMI2.Reachable (model false fs) .coSimulation w := by
  obtain ⟨_, _, _, _, _, c, l, w₀, fuel, ops, outs, h1, h2, h3⟩ := h
  exact ⟨_, _, _, _, _, _, c, l, w₀, fuel, ops, outs, h1, h2, h3⟩

theorem At3.reachable {w : FMI3.World F Data} (h : At3 fs loc w) : FMI3.ReachableCS (model true fs) false false w := by
  obtain ⟨_, _, _, _, _, _, c, l, w₀, h1, h2, h3⟩ := h
  exact ⟨_, _, _, _, _, _, _, c, l, w₀, h1, h2, h3⟩

theorem At2.location {w : FMI2.World F Data} (h : At2 fs loc w) :
    FMI2.WInv (fun c => c.ctx.resourceLocation = loc) w := by
  obtain ⟨_, _, _, _, _, c, l, w₀, fuel, ops, outs, h1, h2, h3⟩ := h
  exact FMI2.run_inv (RefFMU2.resource fs).eff.okOrError (loc_inv (loc := loc)) ops
    (.initial h2 (instantiate_loc h1).1) _ h3

theorem At3.location {w : FMI3.World F Data} (h : At3 fs loc w) :
    FMI3.WInv (fun c => c.ctx.resourceLocation = loc) w := by
  obtain ⟨_, _, _, _, _, _, c, l, w₀, h1, h2, h3⟩ := h
  have hn := New3.location (.cs h1)
  induction h3 with
  | none => exact .initial h2 hn.1
  | call _ _ e ih =>
    exact FMI3.step_inv (RefFMU3.resource fs).eff.okOrError (loc_inv3 (loc := loc)) ih _ _ e

/-- Without a file nothing is computed; with a file it is the value of `y`, whatever was there before. -/
def ode' (b : Bool) (fs : FileSystem) : Ode (model b fs : Model F Data) :=
  { Resource.ode b fs with
    calc' := fun _ => ⟨0⟩
    calc_calc := fun _ => rfl
    states_calc := fun _ => rfl
    derivs_calc := fun _ => rfl
    inds_calc := fun _ => rfl
    upd_calc := fun _ _ => rfl
    getStates := fun h => absurd h (Nat.lt_irrefl 0)
    getDerivs := fun h => absurd h (Nat.lt_irrefl 0)
    setStates := fun h => absurd h (Nat.lt_irrefl 0)
    getInds := fun h => absurd h (Nat.lt_irrefl 0) }

theorem follows (b : Bool) : Follows (ode' b fs : Ode (model b fs : Model F Data)) (id : Unit → Unit)
    (fun _ _ => True) (fun _ _ => True) where
  step _ _ _ := by split <;> trivial
  event _ _ _ := trivial
  update _ _ _ := ⟨(), trivial⟩
  keep _ _ := trivial
  keepP _ _ := trivial

theorem reads (b : Bool) : (model b fs : Model F Data).ReadsUpTo (ode' b fs : Ode (model b fs : Model F Data)).calc' :=
  fun _ _ _ _ _ _ _ => rfl

theorem calm2 : MVInv (model false fs : Model F Data) Calm :=
  Calm.inv (RefFMU2.resource fs).eff (by intro _ _ _ _ _ _ h; cases h) fun h => h
theorem calm3 : MVInv (model true fs : Model F Data) Calm :=
  Calm.inv (RefFMU3.resource fs).eff (by intro _ _ _ _ _ _ h; cases h) fun h => h

/-- The file can be read and has the value `v`. -/
def Gives (b : Bool) (fs : FileSystem) (ctx : Ctx F) (v : Int) : Prop :=
  ∀ mv : MV F Data, calculateValues b fs ctx mv = .ret ({ mv with data := { y := v }, isDirtyValues := false }, .OK, ())

theorem gives2 {uri p q : List UInt8} {c : Option UInt8} {ctx : Ctx F} (hl : ctx.resourceLocation = some uri)
    (hu : FileUri uri p) (hd : PercentDecodes p q) (h0 : 0 ∉ q) (hp : p.length ≤ 4095)
    (hq : (q ++ Spec.ascii "/y.txt").length ≤ 4095) (hf : fs (q ++ Spec.ascii "/y.txt") = some c) :
    Gives false fs ctx (fileValue c) := by
  intro mv
  unfold calculateValues
  rw [hl, resourcePath_of hu, List.take_of_length_le hp, percentDecode_eq hd, cstr_eq h0, Outcome.ret_bind]
  have hq' : (Resource.ascii "/y.txt").length ≤ 4095 - q.length := by
    rw [List.length_append] at hq
    have : Spec.ascii = Resource.ascii := rfl
    rw [this] at hq
    omega
  simp only
  rw [List.take_of_length_le hq', show fs (q ++ Resource.ascii "/y.txt") = some c from hf]
  rfl

theorem gives3 {dir : List UInt8} {c : Option UInt8} {ctx : Ctx F} (hl : ctx.resourceLocation = some dir)
    (hp : dir.length ≤ 4090) (hf : fs (dir ++ Spec.ascii "y.txt") = some c) : Gives true fs ctx (fileValue c) := by
  intro mv
  unfold calculateValues
  rw [hl, resourcePath_three hp, Outcome.ret_bind]
  simp only
  rw [show fs (dir ++ Resource.ascii "y.txt") = some c from hf]
  rfl

/-- What the FMU reports if it can read its file. -/
theorem Gives.get {b : Bool} {c : Comp F Data} {v : Int} (h : Gives b fs c.ctx v) {t : VType} {r : Nat} {u : t.Val F}
    (hu : (⟨t, r, u⟩ : (t : VType) × Nat × t.Val F) = ⟨.float64, 0, c.ctx.time⟩ ∨
      (⟨t, r, u⟩ : (t : VType) × Nat × t.Val F) = ⟨.int32, 1, v⟩) (mv : MV F Data) (x : t.Val F) :
    getLoop (model b fs) t (some [r]) 1 1 0 { c with mv := mv } .OK (some [x]) 0 = .ret
      ({ c with mv := { mv with data := { y := v }, isDirtyValues := false } }, .OK, (some [u], 1)) := by
  have h1 : Ptr.read (some [r]) 0 = .ret r := rfl
  rw [getLoop, h1, Outcome.ret_bind]
  have : (model b fs).get t c.ctx mv r (some [x]) 1 0 =
      .ret ({ mv with data := { y := v }, isDirtyValues := false }, .OK, (some [u], 1)) := by
    rcases hu with hu | hu <;> cases hu
    · show getFloat64 b fs c.ctx mv 0 (some [x]) 1 0 = _
      unfold getFloat64
      rw [h]
      rfl
    · show getInt32 b fs c.ctx mv 1 (some [x]) 1 0 = _
      unfold getInt32
      rw [h]
      rfl
  simp only [this, Comp.lift, Outcome.ret_bind]
  rfl

theorem Gives.vars {w : FMI2.World F Data} {v : Int} (h : Gives false fs w.inst.ctx v) {t : VType} {r : Nat} {u : t.Val F}
    (hu : (⟨t, r, u⟩ : (t : VType) × Nat × t.Val F) = ⟨.float64, 0, w.inst.ctx.time⟩ ∨
      (⟨t, r, u⟩ : (t : VType) × Nat × t.Val F) = ⟨.int32, 1, v⟩) (x : t.Val F) :
    FMI2.getVariables (model false fs) t (some [r]) 1 (some [x]) w.inst = .ret
      ({ w.inst with mv := { w.inst.mv with data := { y := v }, isDirtyValues := false } }, .OK, some [u]) := by
  unfold FMI2.getVariables refresh
  simp only [assertNonNull, Option.isNone_some, Bool.false_eq_true, if_false, Nat.one_ne_zero]
  have h' := h w.inst.mv
  split
  · rw [show (model false fs : Model F Data).calculateValues = calculateValues false fs from rfl, h',
      Comp.lift, Outcome.ret_bind, call_OK]
    simp only [Comp.setDirty]
    rw [h.get hu]
    rfl
  · rw [h.get hu w.inst.mv]
    rfl

theorem Gives.reads2 {w : FMI2.World F Data} {v : Int} (h : Gives false fs w.inst.ctx v)
    (hs : w.inst.ctx.state ∈ FMI2.Spec.allowedIn .getReal) :
    FMI2.Reads (model false fs) w .float64 0 w.inst.ctx.time ∧ FMI2.Reads (model false fs) w .int32 1 v := by
  have ha : FMI2.allowed w.inst.ctx FMI2.MASK_GetReal = true := (FMI2.allowed_fn w.inst.ctx .getReal).2 hs
  constructor <;> intro fuel x
  · refine ⟨{ w with inst := { w.inst with mv := { w.inst.mv with data := { y := v }, isDirtyValues := false } } }, ?_⟩
    simp only [FMI2.step, FMI2.World.run, FMI2.getReal, FMI2.begin, beginFunction]
    rw [if_pos ha, h.vars (.inl rfl)]
    rfl
  · refine ⟨{ w with inst := { w.inst with mv := { w.inst.mv with data := { y := v }, isDirtyValues := false } } }, ?_⟩
    simp only [FMI2.step, FMI2.World.run, FMI2.getInteger, FMI2.begin, beginFunction]
    rw [if_pos ha, h.vars (.inr rfl)]
    rfl

theorem Gives.reads3 {w : FMI3.World F Data} {v : Int} (h : Gives true fs w.inst.ctx v) {t : VType} {r : Nat} {u : t.Val F}
    (hu : (⟨t, r, u⟩ : (t : VType) × Nat × t.Val F) = ⟨.float64, 0, w.inst.ctx.time⟩ ∨
      (⟨t, r, u⟩ : (t : VType) × Nat × t.Val F) = ⟨.int32, 1, v⟩) (hs : w.inst.ctx.state ∈ FMI3.Spec.allowedIn (.get t)) :
    FMI3.Reads (model true fs) w t r u := by
  intro fuel x
  refine ⟨{ w with inst := { w.inst with mv := { w.inst.mv with data := { y := v }, isDirtyValues := false } } }, ?_⟩
  simp only [FMI3.step, FMI3.World.run, FMI3.getVars, FMI3.begin, beginFunction]
  have ha : FMI3.allowed w.inst.ctx FMI3.MASK_Get = true := (FMI3.allowed_fn w.inst.ctx (.get t)).2 hs
  rw [if_pos ha]
  simp only [refresh, assertNonNull, Option.isNone_some, Bool.false_eq_true, if_false,
    Nat.one_ne_zero, gt_iff_lt, Nat.zero_lt_one, if_true]
  split
  · rw [show (model true fs : Model F Data).calculateValues = calculateValues true fs from rfl, h,
      Comp.lift, Outcome.ret_bind, call_OK]
    simp only [Comp.setDirty]
    rw [h.get hu]
    rcases hu with hu | hu <;> cases hu <;> rfl
  · rw [h.get hu w.inst.mv]
    rcases hu with hu | hu <;> cases hu <;> rfl

/-- **C28** for the Resource FMU, for every arithmetic: let an FMI 2.0 and an FMI 3.0 instance (without Event Mode and early
return) have resource directories that contain a file `y.txt` (see C40 and C54) with the same first character. If they report
the same time after their initialisation and are simulated with the same communication steps, they report the same values of
all variables at the end. -/
theorem C28_resource {uri p q dir : List UInt8} {c : Option UInt8} {w₁ w₂ : FMI2.World F Data} {w₁' w₂' : FMI3.World F Data}
    {steps} (h : FMI2.Simulates (model false fs) (At2 fs (some uri)) w₁ w₂ steps)
    (h' : FMI3.Simulates (model true fs') (At3 fs' (some dir)) w₁' w₂' steps)
    (hu : FileUri uri p) (hd : PercentDecodes p q) (h0 : 0 ∉ q) (hp : p.length ≤ 4095)
    (hq : (q ++ Spec.ascii "/y.txt").length ≤ 4095) (hf : fs (q ++ Spec.ascii "/y.txt") = some c)
    (hp' : dir.length ≤ 4090) (hf' : fs' (dir ++ Spec.ascii "y.txt") = some c)
    (ha : Agree [(.float64, 0)] (model false fs) w₁ (model true fs') w₁') :
    Agree [(.float64, 0), (.int32, 1)] (model false fs) w₂ (model true fs') w₂' := by
  have hm : RefFMU2 (model false fs : Model F _) := .resource fs
  have hm' : RefFMU3 (model true fs' : Model F _) := .resource fs'
  have hk := hm.eff.okOrError
  have hk' := hm'.eff.okOrError
  have hre := ha.readable (by simp)
  have l : w₁.inst.ctx.resourceLocation = some uri ∧ w₂.inst.ctx.resourceLocation = some uri := by
    obtain ⟨w, f₁, x, fuel, ops, outs, hr, e₁, hops, e₂, -⟩ := h
    have i1 := FMI2.step_inv hk (loc_inv (loc := some uri)) hr.location _ _ e₁
    exact ⟨i1.inst, (FMI2.run_inv hk (loc_inv (loc := some uri)) ops i1 _ e₂).inst⟩
  have l' : w₁'.inst.ctx.resourceLocation = some dir ∧ w₂'.inst.ctx.resourceLocation = some dir := by
    obtain ⟨w, f₁, x, fuel, ops, outs, hr, e₁, hops, e₂, -⟩ := h'
    have i1 := FMI3.step_inv hk' (loc_inv3 (loc := some dir)) hr.location _ _ e₁
    exact ⟨i1.inst, (FMI3.run_inv hk' (loc_inv3 (loc := some dir)) ops i1 _ e₂).inst⟩
  have s : FMI2.Simulates (model false fs) (FMI2.Reachable (model false fs) .coSimulation) w₁ w₂ steps := by
    obtain ⟨w, f₁, x, fuel, ops, outs, hr, hx⟩ := h
    exact ⟨w, f₁, x, fuel, ops, outs, hr.reachable, hx⟩
  have s' : FMI3.Simulates (model true fs') (FMI3.ReachableCS (model true fs') false false) w₁' w₂' steps := by
    obtain ⟨w, f₁, x, fuel, ops, outs, hr, hx⟩ := h'
    exact ⟨w, f₁, x, fuel, ops, outs, hr.reachable, hx⟩
  have hre' := ((s'.first fun _ h => h).proper.reachable hk').readable hk'
  have e0 : w₁.inst.ctx.time = w₁'.inst.ctx.time := by
    obtain ⟨x, a1, a2⟩ := ha .float64 0 (by simp)
    rw [← a1.unique ((gives2 l.1 hu hd h0 hp hq hf).reads2 hre).1,
      ← a2.unique ((gives3 l'.1 hp' hf').reads3 (.inl rfl) (hre'.all _))]
  obtain ⟨-, ht, hr, hr'⟩ := Simulates.calm (follows (fs := fs) false) (follows (fs := fs') true) calm2 calm3
    ⟨rfl, rfl, rfl⟩ ⟨rfl, rfl, rfl⟩ rfl hm hm' (reads _) (reads _) s s' hre e0 (s := ()) trivial trivial
  have g := (gives2 l.2 hu hd h0 hp hq hf).reads2 hr
  have g' := gives3 l'.2 hp' hf'
  intro t r hv
  simp only [List.mem_cons, List.not_mem_nil, or_false, Prod.mk.injEq] at hv
  rcases hv with ⟨rfl, rfl⟩ | ⟨rfl, rfl⟩
  · exact ⟨_, g.1, by rw [ht]; exact g'.reads3 (.inl rfl) (hr'.all _)⟩
  · exact ⟨_, g.2, g'.reads3 (.inr rfl) (hr'.all _)⟩

/-! Non-vacuity: two simulations as in the theorem, with what they report at the end. -/

/-- The file system of the example. -/
def exFS : FileSystem := fun p => if p = Spec.ascii "/r/y.txt" then some (some 97) else none

example : ∃ (w₁ w₂ : FMI2.World XRat Data) (w₁' w₂' : FMI3.World XRat Data) (steps : _),
    FMI2.Simulates (model false exFS) (At2 exFS (some (Spec.ascii "file:///r"))) w₁ w₂ steps ∧
    FMI3.Simulates (model true exFS) (At3 exFS (some (Spec.ascii "/r/"))) w₁' w₂' steps ∧
    steps = [(.fin 0, .fin 2), (.fin 2, .fin 1)] ∧
    Agree [(.float64, 0)] (model false exFS) w₁ (model true exFS) w₁' ∧ FMI2.Reads (model false exFS) w₂ .float64 0 (.fin 3) ∧
    FMI2.Reads (model false exFS) w₂ .int32 1 97 := by
  let i := FMI2.instantiate (model false exFS : Model XRat Data) (some "n") .coSimulation
    (some "{7b9c2114-2ce5-4076-a138-2cbc69e069e5}") (some (Spec.ascii "file:///r")) (some true) true true
  have hi : i = (some (i.1.get (by decide +kernel)), i.2) := by simp
  let j := FMI3.instantiateCoSimulation (model true exFS : Model XRat Data) (some "n")
    (some "{7b9c2114-2ce5-4076-a138-2cbc69e069e5}") (some (Spec.ascii "/r/")) true false false true false true
  have hj : j = (some (j.1.get (by decide +kernel)), j.2) := by simp
  have h : ((FMI2.run (model false exFS) 10 (FMI2.World.fresh (i.1.get (by decide +kernel)))
      [.setupExperiment (.fin 0) false (.fin 0), .enterInitializationMode]).is fun x =>
      (FMI2.step (model false exFS) 10 x.1 .exitInitializationMode).is fun y => decide (y.2.1 = .OK) &&
      decide (y.1.inst.ctx.time = .fin 0) && decide (y.1.inst.ctx.state = .stepComplete) &&
      (FMI2.run (model false exFS) 10 y.1 [.doStep (.fin 0) (.fin 2), .doStep (.fin 2) (.fin 1)]).is fun z =>
        z.2.all (fun p => decide (p.1 ≠ .Error)) && decide (z.1.inst.ctx.time = .fin 3) &&
        decide (z.1.inst.ctx.state = .stepComplete)) = true := by decide +kernel
  obtain ⟨⟨w, o⟩, e1, h⟩ := Outcome.exists_of_is h
  obtain ⟨⟨w₁, s, o1⟩, e2, h⟩ := Outcome.exists_of_is h
  simp only [Bool.and_eq_true, decide_eq_true_eq] at h
  obtain ⟨⟨⟨rfl, ht⟩, hs⟩, h⟩ := h
  obtain ⟨⟨w₂, outs⟩, e3, h⟩ := Outcome.exists_of_is h
  simp only [Bool.and_eq_true, List.all_eq_true, decide_eq_true_eq] at h
  have h' : ((FMI3.run (model true exFS) 10 (FMI3.World.fresh (j.1.get (by decide +kernel)))
      [.enterInitializationMode (.fin 0) false (.fin 0)]).is fun x =>
      (FMI3.step (model true exFS) 10 x.1 .exitInitializationMode).is fun y => decide (y.2.1 = .OK) &&
      decide (y.1.inst.ctx.time = .fin 0) && decide (y.1.inst.ctx.state = .stepMode) &&
      (FMI3.run (model true exFS) 10 y.1 [.doStep (.fin 0) (.fin 2) Ex.stepOut, .doStep (.fin 2) (.fin 1) Ex.stepOut]).is fun z =>
        z.2.all (fun p => decide (p.1 = .OK))) = true := by decide +kernel
  obtain ⟨⟨w', o'⟩, e1', h'⟩ := Outcome.exists_of_is h'
  obtain ⟨⟨w₁', s', o1'⟩, e2', h'⟩ := Outcome.exists_of_is h'
  simp only [Bool.and_eq_true, decide_eq_true_eq] at h'
  obtain ⟨⟨⟨rfl, ht'⟩, hs'⟩, h'⟩ := h'
  obtain ⟨⟨w₂', outs'⟩, e3', h'⟩ := Outcome.exists_of_is h'
  simp only [List.all_eq_true, decide_eq_true_eq] at h'
  have a : At2 exFS (some (Spec.ascii "file:///r")) w := ⟨_, _, _, _, _, _, _, _, _, _, _, hi,
    ⟨rfl, fun _ => rfl, fun _ _ e => by cases e⟩, e1⟩
  have a' : At3 exFS (some (Spec.ascii "/r/")) w' := ⟨_, _, _, _, _, _, _, _, .fresh _, hj,
    ⟨rfl, fun _ => rfl, fun _ _ e => by cases e⟩, Ex.calls3 _ .none e1' (by simp [FMI3.Op.fn])⟩
  have hk := (RefFMU2.resource (F := XRat) exFS).eff.okOrError
  have hk' := (RefFMU3.resource (F := XRat) exFS).eff.okOrError
  have i1 := FMI2.step_inv hk (loc_inv (loc := some (Spec.ascii "file:///r"))) a.location _ _ e2
  have i2 := FMI2.run_inv hk (loc_inv (loc := some (Spec.ascii "file:///r"))) _ i1 _ e3
  have i1' := FMI3.step_inv hk' (loc_inv3 (loc := some (Spec.ascii "/r/"))) a'.location _ _ e2'
  have hu : FileUri (Spec.ascii "file:///r") (Spec.ascii "/r") := ⟨rfl, .inl rfl⟩
  have hd : PercentDecodes (Spec.ascii "/r") (Spec.ascii "/r") := .plain (by decide) (.plain (by decide) .nil)
  have g1 := (gives2 (fs := exFS) (c := some 97) i1.inst hu hd (by decide) (by decide) (by decide) (by decide)).reads2
    (by rw [hs]; decide)
  have g2 := (gives2 (fs := exFS) (c := some 97) i2.inst hu hd (by decide) (by decide) (by decide) (by decide)).reads2
    (by rw [h.2]; decide)
  have g1' := (gives3 (fs := exFS) (c := some 97) i1'.inst (by decide) (by decide)).reads3 (t := .float64) (.inl rfl)
    (by rw [hs']; decide)
  refine ⟨w₁, w₂, w₁', w₂', _, ⟨w, _, _, _, _, outs, a, e2, by simp [FMI2.Interferes, FMI2.Op.fn], e3, h.1.1, rfl⟩,
    ⟨w', _, _, _, _, outs', a', e2', by simp [FMI3.Interferes, FMI3.Op.fn], e3', h', rfl⟩, rfl, ?_, h.1.2 ▸ g2.1, g2.2⟩
  intro t r hv
  simp only [List.mem_cons, List.not_mem_nil, or_false, Prod.mk.injEq] at hv
  obtain ⟨rfl, rfl⟩ := hv
  exact ⟨_, g1.1, by rw [ht, ← ht']; exact g1'⟩

end Verif.Resource
