import Verif.Lemmas.Resource
import Verif.Lemmas.RelRef
import Verif.Lemmas.Readable
import Verif.Examples

/-!
# C40: the file the Resource FMU opens (FMI 2.0)

Proved for decoded paths that fit into the path buffer together with `/y.txt`. Longer paths are
silently cut (`C40_violated`).
-/

set_option linter.unusedSectionVars false

namespace Verif.Resource
open Verif Spec

/-- The world `w` is reached by FMI 2.0 calls on a Resource FMU that was instantiated with the
resource location `loc`; `fs` is the file system. -/
def ReachableAt {F : Type} [Arith F] [HasInf F] (fs : FileSystem) (loc : Ptr UInt8)
    (w : FMI2.World F Data) : Prop :=
  ∃ name t guid functions loggingOn mem c l w₀ fuel ops outs,
    FMI2.instantiate (model false fs) name t guid loc functions loggingOn mem = (some c, l) ∧
    w₀.Initial c ∧ FMI2.run (model false fs) fuel w₀ ops = .ret (w, outs)

section
variable {F : Type} [Arith F] [HasInf F] {fs : FileSystem} {loc : Ptr UInt8}

theorem createModelInstance_loc {D : Type} {m : Model F D} {ver3 logger iu name token resource loggingOn
    mem typ c l}
    (h : createModelInstance m ver3 logger iu name token resource loggingOn mem typ = (some c, l)) :
    c.ctx.resourceLocation = resource := by
  unfold createModelInstance at h
  simp only at h
  repeat' split at h
  all_goals first | (simp at h; done) | skip
  obtain ⟨h, -⟩ := Prod.mk.inj h
  cases h
  rfl

theorem instantiate_loc {name t guid functions loggingOn mem} {c : Comp F Data} {l}
    (h : FMI2.instantiate (model false fs) name t guid loc functions loggingOn mem = (some c, l)) :
    c.ctx.resourceLocation = loc ∧ c.mv.data.y = 0 ∧ c.mv.isDirtyValues = true ∧
      c.ctx.state = .instantiated := by
  have h' := h
  unfold FMI2.instantiate at h
  split at h
  · simp at h
  · simp at h
  · refine ⟨createModelInstance_loc h, ?_, ?_, (FMI2.instantiate_ctx h').2.1⟩ <;>
      rw [createModelInstance_mv h] <;> rfl

/-- The location never changes. -/
theorem loc_inv : FMI2.HistInv (model false fs : Model F Data) fun c => c.ctx.resourceLocation = loc where
  lift h _ _ := h
  log _ h := h
  dirty _ h := h
  adv h _ := h
  iu h _ := h
  ncp _ h := h
  nx h := h
  nz h := h
  x _ h := h
  dx _ h := h
  z _ h := h
  prez _ h := h
  flags _ _ h := h
  term h := h
  setup _ _ h _ := h
  enterInit h _ := h
  exitInit h _ := h
  reset h := by
    intro x e; cases e; exact h
  restore h _ := h
  enterEvent h _ := h
  enterCT h _ := h
  setTime _ h _ := h

theorem ReachableAt.location {w : FMI2.World F Data} (h : ReachableAt fs loc w) :
    w.inst.ctx.resourceLocation = loc := by
  obtain ⟨_, _, _, _, _, _, c, _, w₀, _, ops, _, h1, h2, h3⟩ := h
  exact (FMI2.run_inv (RefFMU2.resource fs).eff.okOrError (loc_inv (loc := loc)) ops
    (.initial h2 (instantiate_loc h1).1) _ h3).inst

/-- **C40, partial.** For every FMI 2.0 resource location `file:///path` or `file:/path`, whose
path percent-decodes to `q` and, with `/y.txt`, fits into 4095 bytes, every file system, and every
history of calls: what the Resource FMU reports is the content of the file `q/y.txt`.
Missing: longer locations, for which it is false (`C40_violated`). -/
theorem C40_partial {uri p q : List UInt8} {c : Option UInt8} {w : FMI2.World F Data}
    (hw : ReachableAt fs (some uri) w) (hu : FileUri uri p) (hd : PercentDecodes p q)
    (h0 : 0 ∉ q) (hp : p.length ≤ 4095) (hq : (q ++ Spec.ascii "/y.txt").length ≤ 4095)
    (hf : fs (q ++ Spec.ascii "/y.txt") = some c)
    (hs : w.inst.ctx.state ∈ FMI2.Spec.allowedIn .getInteger) :
    FMI2.ReadsInteger (model false fs) w 1 (fileValue c) := by
  have hl := hw.location
  have hcalc : ∀ mv : MV F Data, calculateValues false fs w.inst.ctx mv =
      .ret ({ mv with data := { y := fileValue c }, isDirtyValues := false }, .OK, ()) := by
    intro mv
    unfold calculateValues
    rw [hl, resourcePath_of hu, List.take_of_length_le hp, percentDecode_eq hd, cstr_eq h0,
      Outcome.ret_bind]
    have hq' : (Resource.ascii "/y.txt").length ≤ 4095 - q.length := by
      rw [List.length_append] at hq
      have : Spec.ascii = Resource.ascii := rfl
      rw [this] at hq
      omega
    simp only
    rw [List.take_of_length_le hq', show fs (q ++ Resource.ascii "/y.txt") = some c from hf]
    rfl
  intro fuel x
  refine ⟨{ w with inst := { w.inst with mv := { w.inst.mv with
    data := { y := fileValue c }, isDirtyValues := false } } }, ?_⟩
  simp only [FMI2.step, FMI2.World.run, FMI2.getInteger, FMI2.begin, beginFunction]
  have ha : FMI2.allowed w.inst.ctx FMI2.MASK_GetReal = true :=
    (FMI2.allowed_fn w.inst.ctx .getInteger).2 hs
  rw [if_pos ha]
  have hloop : ∀ mv : MV F Data,
      getLoop (model false fs) .int32 (some [1]) 1 1 0 { w.inst with mv := mv } .OK (some [x]) 0 = .ret
        ({ w.inst with mv := { mv with data := { y := fileValue c }, isDirtyValues := false } }, .OK,
          (some [fileValue c], 1)) := by
    intro mv
    have h1 : Ptr.read (some [1]) 0 = .ret 1 := rfl
    rw [getLoop, h1, Outcome.ret_bind]
    have : (model false fs).get .int32 w.inst.ctx mv 1 (some [x]) 1 0 =
        .ret ({ mv with data := { y := fileValue c }, isDirtyValues := false }, .OK,
          (some [fileValue c], 1)) := by
      show getInt32 false fs w.inst.ctx mv 1 (some [x]) 1 0 = _
      unfold getInt32
      rw [hcalc]
      rfl
    simp only [this, Comp.lift, Outcome.ret_bind]
    rfl
  unfold FMI2.getVariables refresh
  simp only [assertNonNull, Option.isNone_some, Bool.false_eq_true, if_false, Nat.one_ne_zero]
  have hcalc' := hcalc w.inst.mv
  split
  · rw [show (model false fs : Model F Data).calculateValues = calculateValues false fs from rfl, hcalc',
      Comp.lift, Outcome.ret_bind, call_OK]
    simp only [Comp.setDirty]
    rw [hloop]
    rfl
  · rw [hloop w.inst.mv]
    rfl

/-- The FMU cannot compute its path, or cannot open the file. -/
def Unusable (fs : FileSystem) (loc : Ptr UInt8) : Prop :=
  ∀ p, resourcePath false loc = .ret (.path p) → fs p = none

theorem resourcePath_ret (loc : Ptr UInt8) : ∃ r, resourcePath false loc = .ret r := by
  unfold resourcePath
  split
  · exact ⟨_, rfl⟩
  · simp only [Bool.false_eq_true, if_false]
    split
    · exact ⟨_, rfl⟩
    · split <;> exact ⟨_, rfl⟩

theorem Unusable.calc (h : Unusable fs loc) {ctx : Ctx F} (hl : ctx.resourceLocation = loc)
    (mv : MV F Data) : ∃ msg, calculateValues false fs ctx mv = .ret (logError ctx mv msg, .Error, ()) := by
  obtain ⟨r, hr⟩ := resourcePath_ret loc
  unfold calculateValues
  rw [hl, hr, Outcome.ret_bind]
  cases r with
  | error msg => exact ⟨msg, rfl⟩
  | path p =>
    simp only [h p hr]
    exact ⟨_, rfl⟩

theorem logError_data {ctx : Ctx F} {mv : MV F Data} {msg : String} :
    (logError ctx mv msg).data = mv.data := by
  unfold logError
  split <;> rfl

/-- Without a usable file the output keeps its start value. -/
theorem zero_inv (h : Unusable fs loc) : FMI2.HistInv (model false fs : Model F Data)
    fun c => c.ctx.resourceLocation = loc ∧ c.mv.data.y = 0 where
  lift {c f mv' s} hc _ e := by
    refine ⟨hc.1, ?_⟩
    have hsize : ∀ {α} {a n : Nat} {b b' : α},
        assertSize c.ctx c.mv a n b (.ret (c.mv, .OK, b)) = .ret (mv', s, b') → mv'.data = c.mv.data := by
      intro α a n b b' e
      unfold assertSize failM at e
      split at e <;> cases e
      · exact logError_data
      · rfl
    have hy : mv'.data = c.mv.data := by
      cases e with
      | «calc» e =>
        obtain ⟨msg, e'⟩ := h.calc hc.1 c.mv
        rw [show (model false fs).calculateValues c.ctx c.mv = _ from e'] at e
        cases e
        exact logError_data
      | @get t vr p n i _ _ _ _ b e =>
        have hput : ∀ {α} {mv : MV F Data} {v : α} {p : Ptr α} {mv' s b},
            putScalar c.ctx mv p n i v = .ret (mv', s, b) → mv'.data = mv.data := by
          intro α mv v p mv' s b e
          unfold putScalar assertNValues failM at e
          split at e
          · cases e; exact logError_data
          · obtain ⟨_, -, e⟩ := Outcome.bind_eq_ret.1 e
            cases e; rfl
        obtain ⟨msg, e'⟩ := h.calc hc.1 c.mv
        cases t with
        | float64 =>
          change getFloat64 false fs c.ctx c.mv vr p n i = _ at e
          unfold getFloat64 assertNotNull failM at e
          split at e
          · cases e; exact logError_data
          · rw [e', Outcome.ret_bind] at e
            simp only at e
            split at e
            · rw [hput e]; exact logError_data
            · cases e; rw [logError_data]; exact logError_data
        | int32 =>
          change getInt32 false fs c.ctx c.mv vr p n i = _ at e
          unfold getInt32 assertNotNull failM at e
          split at e
          · cases e; exact logError_data
          · rw [e', Outcome.ret_bind] at e
            simp only at e
            split at e
            · rw [hput e]; exact logError_data
            · cases e; rw [logError_data]; exact logError_data
        | _ => cases e; exact logError_data
      | set e => cases e; exact logError_data
      | event e => cases e
      | getStates e => exact hsize e
      | nominals e => exact hsize e
      | setStates e => exact hsize e
      | deriv e => exact hsize e
      | indicators e => exact hsize e
      | partialDeriv e => cases e; exact logError_data
      | outDeriv e => cases e
      | activate e => cases e; rfl
      | getClock e => cases e; rfl
      | getInterval e => cases e; rfl
      | partition e => cases e; rfl
    show mv'.data.y = 0
    rw [hy]; exact hc.2
  log _ h := ⟨h.1, by rw [Comp.logError]; simp only [logError_data]; exact h.2⟩
  dirty _ h := h
  adv h _ := h
  iu h _ := h
  ncp _ h := h
  nx h := h
  nz h := h
  x _ h := h
  dx _ h := h
  z _ h := h
  prez _ h := h
  flags _ _ h := h
  term h := h
  setup _ _ h _ := h
  enterInit h _ := h
  exitInit h _ := h
  reset h := by
    intro x e; cases e; exact ⟨h.1, rfl⟩
  restore h h' := ⟨h.1, h'.2⟩
  enterEvent h _ := h
  enterCT h _ := h
  setTime _ h _ := h

/-- Part of C40: if the resource location is not NULL but does not start with `file:/`, the new
instance cannot leave Initialization Mode: `fmi2ExitInitializationMode` returns `fmi2Error`. -/
theorem C40_refused {uri : List UInt8} (hu : ¬ Spec.ascii "file:/" <+: uri)
    {name t guid functions loggingOn mem} {c : Comp F Data} {l} {w₀ : FMI2.World F Data} {fuel : Nat}
    (hi : FMI2.instantiate (model false fs) name t guid (some uri) functions loggingOn mem = (some c, l))
    (h0 : w₀.Initial c) :
    ∃ w, FMI2.run (model false fs) fuel w₀ [.enterInitializationMode, .exitInitializationMode] =
      .ret (w, [(.OK, .unit), (.Error, .unit)]) := by
  obtain ⟨h1, h2, h3, h4⟩ := instantiate_loc hi
  have hun : Unusable fs (some uri) := by
    intro p hp
    obtain ⟨msg, e⟩ := resourcePath_refused hu
    rw [e] at hp
    cases hp
  obtain ⟨msg, e⟩ := hun.calc (ctx := { c.ctx with state := .initializationMode }) h1 c.mv
  have hw : w₀.inst = c := h0.inst
  have a1 : FMI2.allowed c.ctx FMI2.MASK_EnterInitializationMode = true :=
    (FMI2.allowed_fn c.ctx .enterInitializationMode).2 (by rw [h4]; decide)
  have a2 : FMI2.allowed { c.ctx with state := .initializationMode } FMI2.MASK_ExitInitializationMode = true :=
    (FMI2.allowed_fn { c.ctx with state := .initializationMode } .exitInitializationMode).2
      (by show Mode.initializationMode ∈ _; decide)
  apply Exists.intro
  simp only [FMI2.run, FMI2.step, FMI2.World.run, FMI2.enterInitializationMode, FMI2.begin, beginFunction, hw]
  rw [if_pos a1]
  simp only [Outcome.ret_bind, FMI2.exitInitializationMode, FMI2.begin, beginFunction, Comp.setState]
  rw [if_pos a2]
  unfold refresh
  simp only [h3, if_true]
  rw [show (model false fs : Model F Data).calculateValues = calculateValues false fs from rfl, e]
  rfl

/-- Part of C40: with such a location no history of calls ever makes the FMU report anything but
the start value 0 of its output. -/
theorem C40_nothing_read {uri : List UInt8} (hu : ¬ Spec.ascii "file:/" <+: uri)
    {w w' : FMI2.World F Data} (hw : ReachableAt fs (some uri) w) {fuel x o}
    (h : FMI2.step (model false fs) fuel w (.getInteger (some [1]) 1 (some [x])) = .ret (w', .OK, o)) :
    o = .ints (some [0]) := by
  have hun : Unusable fs (some uri) := by
    intro p hp
    obtain ⟨msg, e⟩ := resourcePath_refused hu
    rw [e] at hp
    cases hp
  obtain ⟨_, _, _, _, _, _, c, _, w₀, _, ops, _, h1, h2, h3⟩ := hw
  have hz := (FMI2.run_inv (RefFMU2.resource fs).eff.okOrError (zero_inv hun) ops
    (.initial h2 ⟨(instantiate_loc h1).1, (instantiate_loc h1).2.1⟩) _ h3).inst
  simp only [FMI2.step, FMI2.World.run, FMI2.getInteger, FMI2.begin, beginFunction] at h
  split at h
  case isFalse => simp at h
  unfold FMI2.getVariables refresh at h
  simp only [assertNonNull, Option.isNone_some, Bool.false_eq_true, if_false, Nat.one_ne_zero] at h
  split at h
  · obtain ⟨msg, e⟩ := hun.calc hz.1 w.inst.mv
    rw [show (model false fs : Model F Data).calculateValues = calculateValues false fs from rfl, e] at h
    simp [Comp.lift, call, Status.rank] at h
  · have h1 : Ptr.read (some [1]) 0 = .ret 1 := rfl
    obtain ⟨msg, e⟩ := hun.calc hz.1 w.inst.mv
    have : (model false fs).get .int32 w.inst.ctx w.inst.mv 1 (some [x]) 1 0 =
        .ret (logError w.inst.ctx w.inst.mv msg, .OK, (some [0], 1)) := by
      show getInt32 false fs w.inst.ctx w.inst.mv 1 (some [x]) 1 0 = _
      unfold getInt32
      rw [e]
      simp only [assertNotNull, Option.isNone_some, Bool.false_eq_true, if_false, Outcome.ret_bind,
        logError_data]
      rw [show w.inst.mv.data.y = 0 from hz.2]
      rfl
    rw [getLoop, h1, Outcome.ret_bind] at h
    simp only [this, Comp.lift, Outcome.ret_bind, call_OK, getLoop, Outcome.ret.injEq,
      Prod.mk.injEq] at h
    exact h.2.2.symm

/-- Part of C40: computing the path of an FMI 2.0 Resource FMU has no undefined behaviour, and the
path always fits with its terminator into the buffer of 4096 bytes. -/
theorem C40_bounded (loc : Ptr UInt8) : ∃ r, resourcePath false loc = .ret r ∧
    ∀ p, r = .path p → p.length + 1 ≤ 4096 := by
  obtain ⟨r, e⟩ := resourcePath_ret loc
  refine ⟨r, e, ?_⟩
  rintro p rfl
  exact Nat.succ_le_succ (path_length e)

end

/-- **C40 is violated** for long locations: for every absolute path of 4095 plain characters the
FMU opens that path itself instead of the file `y.txt` below it. -/
theorem C40_violated (p : List UInt8) (hp : p.length = 4095) (h1 : p.head? = some 47)
    (h2 : ∀ c ∈ p, c ≠ 37 ∧ c ≠ 0) : PercentDecodes p p ∧
    resourcePath false (some (Spec.ascii "file://" ++ p)) = .ret (.path p) := by
  have hd : ∀ p : List UInt8, (∀ c ∈ p, c ≠ 37 ∧ c ≠ 0) → PercentDecodes p p := by
    intro p h
    induction p with
    | nil => exact .nil
    | cons c p ih =>
      exact .plain (h c (by simp)).1 (ih fun c hc => h c (List.mem_cons_of_mem _ hc))
  refine ⟨hd p h2, ?_⟩
  rw [resourcePath_of ⟨h1, .inl rfl⟩, List.take_of_length_le (Nat.le_of_eq hp), percentDecode_eq (hd p h2),
    cstr_eq fun h => (h2 0 h).2 rfl]
  simp [hp]

/-- The hypotheses of `C40_partial` are satisfied: location `file:///a%20b`, a file with the text
`x...`, an instance in Initialization Mode; the importer reads 120. -/
example : ∃ w : FMI2.World XRat Data,
    ReachableAt (fun p => if p = Spec.ascii "/a b/y.txt" then some (some 120) else none)
      (some (Spec.ascii "file:///a%20b")) w ∧
    FMI2.ReadsInteger (model false fun p => if p = Spec.ascii "/a b/y.txt" then some (some 120) else none)
      w 1 120 := by
  let fs : FileSystem := fun p => if p = Spec.ascii "/a b/y.txt" then some (some 120) else none
  let i := FMI2.instantiate (model false fs : Model XRat Data) (some "n") .coSimulation
    (some "{7b9c2114-2ce5-4076-a138-2cbc69e069e5}") (some (Spec.ascii "file:///a%20b")) (some true) true true
  have hi : i = (some (i.1.get (by decide +kernel)), i.2) := by simp
  have h : ((FMI2.run (model false fs) 10 (FMI2.World.fresh (i.1.get (by decide +kernel)))
      [.enterInitializationMode]).is fun x => decide (x.1.inst.ctx.state = .initializationMode)) = true := by
    decide +kernel
  obtain ⟨⟨w, o⟩, e, h⟩ := Outcome.exists_of_is h
  have hw : ReachableAt fs (some (Spec.ascii "file:///a%20b")) w :=
    ⟨_, _, _, _, _, _, _, _, _, _, _, _, hi, ⟨rfl, fun _ => rfl, fun _ _ h => by simp [FMI2.World.fresh] at h⟩, e⟩
  refine ⟨w, hw, ?_⟩
  refine C40_partial (p := Spec.ascii "/a%20b") (q := Spec.ascii "/a b") (c := some 120) hw ⟨rfl, .inl rfl⟩ ?_ ?_ ?_ ?_ ?_ ?_
  · exact .plain (by decide) (.plain (by decide) (.coded (x := 2) (y := 0) rfl rfl (.plain (by decide) .nil)))
  · decide
  · decide
  · decide
  · decide
  · simp only [decide_eq_true_eq] at h
    rw [h]; decide

/-- A location that `C40_refused` is about. -/
example : ¬ Spec.ascii "file:/" <+: Spec.ascii "http://host/resources" := by decide

end Verif.Resource
