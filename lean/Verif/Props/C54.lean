import Verif.Props.C40

/-!
# C54: the file the Resource FMU opens (FMI 3.0)

Proved for resource paths of at most 4090 bytes. From 4096 bytes on the FMU executes undefined
behaviour (`C54_violated`), in between the file name is cut.
-/

set_option linter.unusedSectionVars false

namespace Verif.Resource
open Verif Spec

section
variable {F : Type} [Arith F] [HasInf F] {fs : FileSystem} {loc : Ptr UInt8}

/-- The instance `c` was created for Model Exchange or Co-Simulation with resource path `loc`. -/
inductive New3 (fs : FileSystem) (loc : Ptr UInt8) : Comp F Data → Prop
  | me {name token loggingOn logger mem c l} :
      FMI3.instantiateModelExchange (model true fs) name token loc loggingOn logger mem = (some c, l) →
      New3 fs loc c
  | cs {name token loggingOn eventModeUsed earlyReturnAllowed logger iu mem c l} :
      FMI3.instantiateCoSimulation (model true fs) name token loc loggingOn eventModeUsed
        earlyReturnAllowed logger iu mem = (some c, l) →
      New3 fs loc c

theorem New3.location {c : Comp F Data} (h : New3 fs loc c) :
    c.ctx.resourceLocation = loc ∧ c.ctx.state = .instantiated ∧ c.mv.isDirtyValues = true := by
  cases h with
  | me h =>
    have hn := (FMI3.New.me h).ctx
    unfold FMI3.instantiateModelExchange at h
    split at h
    · simp at h
    · exact ⟨createModelInstance_loc h, hn.2.1, by rw [createModelInstance_mv h]⟩
  | @cs name token loggingOn em er logger iu mem _ l h =>
    have hn := (FMI3.New.cs h).ctx
    unfold FMI3.instantiateCoSimulation at h
    split at h
    · simp at h
    · simp only [Prod.mk.injEq, Option.map_eq_some_iff] at h
      obtain ⟨⟨c₀, hc, rfl⟩, -⟩ := h
      have hc' : createModelInstance (model true fs) true logger iu name token loc loggingOn mem .coSimulation =
        (some c₀, (createModelInstance (model true fs) true logger iu name token loc loggingOn mem .coSimulation).2) := by
        rw [← hc]
      refine ⟨?_, hn.2.1, ?_⟩
      · have := createModelInstance_loc hc'
        simpa [Comp.setState] using this
      · have := createModelInstance_mv hc'
        simp only [Comp.setState]
        rw [this]

/-- The location never changes. -/
theorem loc_inv3 : FMI3.HistInv (model true fs : Model F Data) fun c => c.ctx.resourceLocation = loc where
  lift h _ _ := h
  log _ h := h
  dirty _ h := h
  adv h _ := h
  iu h _ := h
  ncp _ h := h
  nx h := h
  nz h := h
  x _ h := h
  dx _ h := h
  z _ h := h
  prez _ h := h
  flags _ _ h := h
  term h := h
  enterInit _ _ h _ := h
  exitInit h _ := h
  enterConfig h _ := h
  exitConfig h _ := h
  reset h := by
    intro x e; cases e; exact h
  restore h _ := h
  enterEvent h _ := h
  enterCT h _ := h
  enterStep h _ := h
  setTime _ h _ := h

/-- **C54, partial.** For every resource path of at most 4090 bytes, every file system and every
history of FMI 3.0 calls: what the Resource FMU reports is the content of the file `y.txt` in that
directory. Missing: longer paths, for which it is false (`C54_violated`). -/
theorem C54_partial {dir : List UInt8} {b : Option UInt8} {c : Comp F Data}
    {w₀ w : FMI3.World F Data} {fuel ops outs}
    (hc : New3 fs (some dir) c) (h0 : w₀.Initial c)
    (hr : FMI3.run (model true fs) fuel w₀ ops = .ret (w, outs))
    (hp : dir.length ≤ 4090) (hf : fs (dir ++ Spec.ascii "y.txt") = some b)
    (hs : w.inst.ctx.state ∈ FMI3.Spec.allowedIn (.get .int32)) :
    FMI3.Reads (model true fs) w .int32 1 (fileValue b) := by
  have hl : w.inst.ctx.resourceLocation = some dir :=
    (FMI3.run_inv (RefFMU3.resource fs).eff.okOrError (loc_inv3 (loc := some dir)) ops
      (.initial h0 hc.location.1) _ hr).inst
  have hcalc : ∀ mv : MV F Data, calculateValues true fs w.inst.ctx mv =
      .ret ({ mv with data := { y := fileValue b }, isDirtyValues := false }, .OK, ()) := by
    intro mv
    unfold calculateValues
    rw [hl, resourcePath_three hp, Outcome.ret_bind]
    simp only
    rw [show fs (dir ++ Resource.ascii "y.txt") = some b from hf]
    rfl
  intro fuel x
  refine ⟨{ w with inst := { w.inst with mv := { w.inst.mv with
    data := { y := fileValue b }, isDirtyValues := false } } }, ?_⟩
  have hloop : ∀ mv : MV F Data,
      getLoop (model true fs) .int32 (some [1]) 1 1 0 { w.inst with mv := mv } .OK (some [x]) 0 = .ret
        ({ w.inst with mv := { mv with data := { y := fileValue b }, isDirtyValues := false } }, .OK,
          (some [fileValue b], 1)) := by
    intro mv
    have h1 : Ptr.read (some [1]) 0 = .ret 1 := rfl
    rw [getLoop, h1, Outcome.ret_bind]
    have : (model true fs).get .int32 w.inst.ctx mv 1 (some [x]) 1 0 =
        .ret ({ mv with data := { y := fileValue b }, isDirtyValues := false }, .OK,
          (some [fileValue b], 1)) := by
      show getInt32 true fs w.inst.ctx mv 1 (some [x]) 1 0 = _
      unfold getInt32
      rw [hcalc]
      rfl
    simp only [this, Comp.lift, Outcome.ret_bind]
    rfl
  simp only [FMI3.step, FMI3.World.run, FMI3.getVars, FMI3.begin, beginFunction]
  have ha : FMI3.allowed w.inst.ctx FMI3.MASK_Get = true :=
    (FMI3.allowed_fn w.inst.ctx (.get .int32)).2 hs
  rw [if_pos ha]
  simp only [refresh, assertNonNull, Option.isNone_some, Bool.false_eq_true, if_false,
    Nat.one_ne_zero, gt_iff_lt, Nat.zero_lt_one, if_true]
  split
  · rw [show (model true fs : Model F Data).calculateValues = calculateValues true fs from rfl, hcalc,
      Comp.lift, Outcome.ret_bind, call_OK]
    simp only [Comp.setDirty]
    rw [hloop]
    rfl
  · rw [hloop w.inst.mv]
    rfl

/-- **C54 is violated** for every resource path of 4096 or more bytes: leaving Initialization Mode
is undefined behaviour, because the path is copied without a terminator. -/
theorem C54_violated {dir : List UInt8} {c : Comp F Data} {w₀ : FMI3.World F Data} {fuel : Nat}
    (hc : New3 fs (some dir) c) (h0 : w₀.Initial c) (hp : 4096 ≤ dir.length) (t0 : F) :
    FMI3.run (model true fs) fuel w₀ [.enterInitializationMode t0 false t0,
      .exitInitializationMode] = .ub := by
  obtain ⟨h1, h2, h3⟩ := hc.location
  have hw : w₀.inst = c := h0.inst
  have a1 : FMI3.allowed c.ctx FMI3.MASK_EnterInitializationMode = true :=
    (FMI3.allowed_fn c.ctx .enterInitializationMode).2 (by rw [h2]; decide)
  have a2 : ∀ t : F, FMI3.allowed { c.ctx with time := t, state := .initializationMode }
      FMI3.MASK_ExitInitializationMode = true := by
    intro t
    refine (FMI3.allowed_fn { c.ctx with time := t, state := .initializationMode } .exitInitializationMode).2 ?_
    show Mode.initializationMode ∈ _
    decide
  have e : ∀ t : F, calculateValues true fs { c.ctx with time := t, state := .initializationMode } c.mv = .ub := by
    intro t
    unfold calculateValues
    simp only [h1]
    rw [resourcePath_long hp]
    rfl
  simp only [FMI3.run, FMI3.step, FMI3.World.run, FMI3.enterInitializationMode, FMI3.begin, beginFunction, hw]
  rw [if_pos a1]
  simp only [Outcome.ret_bind, FMI3.exitInitializationMode, FMI3.begin, beginFunction, Comp.setState,
    Comp.setTime]
  rw [if_pos (a2 t0)]
  unfold refresh
  simp only [h3, if_true]
  rw [show (model true fs : Model F Data).calculateValues = calculateValues true fs from rfl, e]
  rfl

end

/-- The hypotheses of `C54_partial` are satisfied: directory `/r/`, a file with the text `a...`,
an instance in Initialization Mode. -/
example : ∃ (fs : FileSystem) (c : Comp XRat Data) (w₀ w : FMI3.World XRat Data) (ops : _) (outs : _),
    New3 fs (some (Spec.ascii "/r/")) c ∧ w₀.Initial c ∧
    FMI3.run (model true fs) 10 w₀ ops = .ret (w, outs) ∧ fs (Spec.ascii "/r/" ++ Spec.ascii "y.txt") =
      some (some 97) ∧ w.inst.ctx.state ∈ FMI3.Spec.allowedIn (.get .int32) := by
  let fs : FileSystem := fun p => if p = Spec.ascii "/r/y.txt" then some (some 97) else none
  let i := FMI3.instantiateCoSimulation (model true fs : Model XRat Data) (some "n")
    (some "{7b9c2114-2ce5-4076-a138-2cbc69e069e5}") (some (Spec.ascii "/r/")) true false false true
    false true
  have hi : i = (some (i.1.get (by decide +kernel)), i.2) := by simp
  have h : ((FMI3.run (model true fs) 10 (FMI3.World.fresh (i.1.get (by decide +kernel)))
      [.enterInitializationMode (.fin 0) false (.fin 0)]).is fun x =>
        decide (x.1.inst.ctx.state = .initializationMode)) = true := by decide +kernel
  obtain ⟨⟨w, o⟩, e, h⟩ := Outcome.exists_of_is h
  refine ⟨fs, _, _, w, _, _, .cs hi, ⟨rfl, fun _ => rfl, fun _ _ h => by simp [FMI3.World.fresh] at h⟩, e, ?_, ?_⟩
  · decide
  · simp only [decide_eq_true_eq] at h
    rw [h]; decide

end Verif.Resource
