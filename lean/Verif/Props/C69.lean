import Verif.Lemmas.StartValues
import Verif.Lemmas.ExTwin

/-!
# C69: the FMUs start with the values that their model descriptions declare

The start values are read from an instance in which nothing was set, whether it is new or was reset, in every mode in which
reading is allowed. `fmi3Reset` of StateSpace does not restore `x0`.
-/

set_option linter.unusedSectionVars false

namespace Verif
variable {F D : Type} [Arith F] [HasInf F] {m : Model F D} {ss : List (Start F)}

/-- **C69**, FMI 2.0. -/
theorem FMI2.C69 (hm : FMI2.Declares m ss) {w : FMI2.World F D} (h : FMI2.Untouched m w ∨ FMI2.Renewed m w)
    (hs : w.inst.ctx.state ∈ FMI2.Spec.allowedIn .getReal) :
    ∀ s ∈ ss, FMI2.Reads m w s.type s.vr s.value := by
  intro s h1
  obtain ⟨he, R, l, hl, ht⟩ := hm.lens
  have : ∃ ctx mv, l.upd w.inst.mv.data = l.upd (m.setStartValues ctx mv).data := by
    rcases h with h | h
    · obtain ⟨ctx, mv, -, h⟩ := h.started he hl.reads; exact ⟨ctx, mv, h⟩
    · obtain ⟨ctx, mv, -, h⟩ := h.started he hl.reads; exact ⟨ctx, mv, h⟩
  obtain ⟨ctx, mv, h⟩ := this
  have := FMI2.reads_lens l (hl.mem s h1) (ht s h1) hs
  rwa [hl.val _ _ _ _ _ h, hl.start s h1] at this

/-- **C69**, FMI 3.0, scalar variables. -/
theorem FMI3.C69 (hm : FMI3.Declares m ss) {w : FMI3.World F D} (h : FMI3.Untouched m w ∨ FMI3.Renewed m w) :
    ∀ s ∈ ss, w.inst.ctx.state ∈ FMI3.Spec.allowedIn (.get s.type) → FMI3.Reads m w s.type s.vr s.value := by
  intro s h1 hs
  obtain ⟨he, R, l, hl⟩ := hm.lens
  have : ∃ ctx mv, l.upd w.inst.mv.data = l.upd (m.setStartValues ctx mv).data := by
    rcases h with h | h
    · obtain ⟨ctx, mv, -, h⟩ := h.started he hl.reads; exact ⟨ctx, mv, h⟩
    · obtain ⟨ctx, mv, -, h⟩ := h.started he hl.reads; exact ⟨ctx, mv, h⟩
  obtain ⟨ctx, mv, h⟩ := this
  have := FMI3.reads_lens l (hl.mem s h1) hs
  rwa [hl.val _ _ _ _ _ h, hl.start s h1] at this

namespace StateSpace

theorem Started.bounds {P : MV F (Data F) → Prop} {d : Data F} (h : (model : Model F _).Started upd P d) :
    d.m = 3 ∧ d.n = 3 ∧ d.r = 3 := by
  obtain ⟨ctx, mv, -, h⟩ := h
  exact ⟨congrArg Data.m h, congrArg Data.n h, congrArg Data.r h⟩

/-- Reading a structural parameter. -/
theorem reads_param {w : FMI3.World F (Data F)} (hb : inBounds w.inst.mv.data = true)
    (hs : w.inst.ctx.state ∈ FMI3.Spec.allowedIn (.get .uint64)) {vr : Nat} {f : Data F → Nat} (hf : ∀ d, f (upd d) = f d)
    (hg : ∀ ctx (mv : MV F (Data F)) x, getUInt64 ctx mv vr (some [x]) 1 0 = .ret (mv, .OK, (some [(f mv.data : Int)], 1))) :
    FMI3.Reads model w .uint64 vr (f w.inst.mv.data : Int) := by
  intro fuel x
  have ha : FMI3.allowed w.inst.ctx FMI3.MASK_Get = true := (FMI3.allowed_fn w.inst.ctx (.get .uint64)).2 hs
  have fin : ∀ c : Comp F (Data F), f c.mv.data = f w.inst.mv.data →
      ∃ c', (getLoop model .uint64 (some [vr]) 1 1 0 c .OK (some [x]) 0 >>- fun (c, st, (values, index)) =>
        if st = .Discard ∨ st = .Error ∨ st = .Fatal then .ret (c, st, values)
        else if VType.uint64 ≠ .binary ∧ index ≠ 1 then FMI3.fail c "Expected nValues = %zu but was %zu." values
        else .ret (c, st, values)) = .ret (c', .OK, some [(f w.inst.mv.data : Int)]) := by
    intro c he
    have e : getLoop model .uint64 (some [vr]) 1 1 0 c .OK (some [x]) 0 = .ret (c, .OK, (some [(f w.inst.mv.data : Int)], 1)) := by
      simp only [getLoop, Ptr.read, List.getElem?_cons_zero, Outcome.ret_bind]
      show call .OK (c.lift (getUInt64 c.ctx c.mv vr (some [x]) 1 0)) id _ = _
      rw [hg, he]; rfl
    exact ⟨c, by rw [e]; simp⟩
  have main : ∃ c', FMI3.getVars model .uint64 w.inst (some [vr]) 1 (some [x]) 1 = .ret (c', .OK, some [(f w.inst.mv.data : Int)]) := by
    simp only [FMI3.getVars]
    rw [FMI3.begin_ok (mask := FMI3.MASK_Get) ha]
    simp only [Nat.one_ne_zero, if_false, assertNonNull, Option.isNone_some, Bool.false_eq_true, ite_self, refresh]
    split
    · obtain ⟨c', e⟩ := fin (({ w.inst with mv := calcValues w.inst.mv } : Comp F (Data F)).setDirty false) (hf _)
      refine ⟨c', ?_⟩
      have : (w.inst.lift ((model (F := F)).calculateValues w.inst.ctx w.inst.mv)) =
          .ret ({ w.inst with mv := calcValues w.inst.mv }, .OK, ()) := by
        simp only [Comp.lift, model, calculateValues, guarded, hb, if_true, Outcome.ret_bind]
      rw [this]
      exact e
    · exact fin w.inst rfl
  obtain ⟨c', e⟩ := main
  exact ⟨_, by simp only [FMI3.step, FMI3.World.run]; rw [e]; rfl⟩

theorem Started.starts {P : MV F (Data F) → Prop} {w : FMI3.World F (Data F)} (h : (model : Model F _).Started upd P w.inst.mv.data)
    (hs : w.inst.ctx.state ∈ FMI3.Spec.allowedIn (.get .float64)) :
    (∀ s ∈ StateSpace.starts, FMI3.Reads model w s.type s.vr s.value) ∧ ∀ a ∈ startArrays, FMI3.ReadsArray model w a.1 a.2 := by
  obtain ⟨h1, h2, h3⟩ := Started.bounds h
  have hb : inBounds w.inst.mv.data = true := by simp [inBounds, h1, h2, h3, maxDim]
  constructor
  · simp only [StateSpace.starts, List.forall_mem_cons]
    refine ⟨?_, ?_, ?_, fun _ h => by cases h⟩
    · have := reads_param (vr := 1) (f := Data.m) hb hs (fun _ => rfl) (fun _ _ _ => rfl); rwa [h1] at this
    · have := reads_param (vr := 2) (f := Data.n) hb hs (fun _ => rfl) (fun _ _ _ => rfl); rwa [h2] at this
    · have := reads_param (vr := 3) (f := Data.r) hb hs (fun _ => rfl) (fun _ _ _ => rfl); rwa [h3] at this
  · obtain ⟨ctx, mv, -, h⟩ := h
    have key : ∀ vr, 4 ≤ vr → vr ≤ 12 → FMI3.ReadsArray model w vr (block (upd (setStartValues ctx mv).data) vr) := by
      intro vr h1 h2
      have := reads_block hb hs h1 h2
      rwa [h] at this
    simp only [startArrays, List.forall_mem_cons]
    refine ⟨key 4 (by decide) (by decide), key 5 (by decide) (by decide), key 6 (by decide) (by decide),
      key 7 (by decide) (by decide), ?_, fun _ h => by cases h⟩
    have := key 9 (by decide) (by decide)
    have e2 : (1 + 1 : Rat) = 2 := by decide +kernel
    have e3 : (2 + 1 : Rat) = 3 := by decide +kernel
    simpa [block, upd, setStartValues, elems, List.range_succ, e2, e3] using this

end StateSpace

/-- **C69**, StateSpace, for all start values but the one of `x0`. -/
theorem FMI3.C69_stateSpace_partial {w : FMI3.World F (StateSpace.Data F)}
    (h : FMI3.Untouched StateSpace.model w ∨ FMI3.Renewed StateSpace.model w)
    (hs : w.inst.ctx.state ∈ FMI3.Spec.allowedIn (.get .float64)) :
    (∀ s ∈ StateSpace.starts, FMI3.Reads StateSpace.model w s.type s.vr s.value) ∧
    ∀ a ∈ StateSpace.startArrays, FMI3.ReadsArray StateSpace.model w a.1 a.2 := by
  rcases h with h | h
  · exact StateSpace.Started.starts (h.started RefFMU3.stateSpace.eff StateSpace.reads_upTo) hs
  · exact StateSpace.Started.starts (h.started RefFMU3.stateSpace.eff StateSpace.reads_upTo) hs

/-- **C69**, StateSpace: `x0` of a new instance. -/
theorem FMI3.C69_x0 {w : FMI3.World F (StateSpace.Data F)} (h : FMI3.Untouched StateSpace.model w)
    (hs : w.inst.ctx.state ∈ FMI3.Spec.allowedIn (.get .float64)) :
    FMI3.ReadsArray StateSpace.model w 8 [Arith.lit 0, Arith.lit 0, Arith.lit 0] := by
  have h' := h.started RefFMU3.stateSpace.eff StateSpace.reads_upTo
  obtain ⟨h1, h2, h3⟩ := StateSpace.Started.bounds h'
  have := StateSpace.reads_block (vr := 8) (by simp [StateSpace.inBounds, h1, h2, h3, StateSpace.maxDim]) hs (by decide) (by decide)
  obtain ⟨ctx, mv, h0, h'⟩ := h'
  rw [h'] at this
  simpa [StateSpace.block, StateSpace.upd, StateSpace.model, StateSpace.setStartValues, StateSpace.elems, List.range_succ, h0] using this

/-! ## Examples -/

namespace C69

theorem untouched2 {D : Type} {m : Model XRat D} {t ops w outs} (h : Ex.run2 m t ops = .ret (w, outs))
    (hops : ∀ op ∈ ops, FMI2.Leaves op) : FMI2.Untouched m w := by
  unfold Ex.run2 at h
  split at h
  · next c hc => exact ⟨_, _, _, _, _, _, _, c, _, .fresh c, Prod.ext hc rfl,
      ⟨rfl, fun _ => rfl, fun _ _ e => by cases e⟩, Ex.calls2 ops .none h fun op h _ => hops op h⟩
  · cases h

theorem untouched3 {D : Type} {m : Model XRat D} {emu era ops w outs} (h : Ex.runCS3 m emu era ops = .ret (w, outs))
    (hops : ∀ op ∈ ops, FMI3.Leaves op) : FMI3.Untouched m w := by
  unfold Ex.runCS3 at h
  split at h
  · next c hc => exact ⟨_, c, .fresh c, .cs (Prod.ext hc rfl),
      ⟨rfl, fun _ => rfl, fun _ _ e => by cases e⟩, Ex.calls3 ops .none h fun op h _ => hops op h⟩
  · cases h

theorem renewed2 {D : Type} {m : Model XRat D} {t ops ops'} {q : FMI2.World XRat D → Bool} (h : (Ex.run2 m t ops).is (fun x =>
    (FMI2.step m 0 x.1 .reset).is fun y => y.2.1 == .OK && (FMI2.run m 1000 y.1 ops').is fun z => q z.1) = true)
    (hops : ∀ op ∈ ops', FMI2.Leaves op) : ∃ w, FMI2.Renewed m w ∧ q w = true := by
  obtain ⟨⟨v, outs⟩, e, h⟩ := Outcome.exists_of_is h
  obtain ⟨⟨w₀, s, o⟩, e1, h⟩ := Outcome.exists_of_is h
  simp only [Bool.and_eq_true, beq_iff_eq] at h
  obtain ⟨rfl, h⟩ := h
  obtain ⟨⟨w, outs'⟩, e2, h⟩ := Outcome.exists_of_is h
  exact ⟨w, ⟨t, v, w₀, 0, o, Ex.reach_run2 e, e1, Ex.calls2 ops' .none e2 fun op h _ => hops op h⟩, h⟩

theorem renewed3 {D : Type} {m : Model XRat D} {emu era ops ops'} {q : FMI3.World XRat D → Bool} (h : (Ex.runCS3 m emu era ops).is (fun x =>
    (FMI3.step m 0 x.1 .reset).is fun y => y.2.1 == .OK && (FMI3.run m 1000 y.1 ops').is fun z => q z.1) = true)
    (hops : ∀ op ∈ ops', FMI3.Leaves op) : ∃ w, FMI3.Renewed m w ∧ q w = true := by
  obtain ⟨⟨v, outs⟩, e, h⟩ := Outcome.exists_of_is h
  obtain ⟨⟨w₀, s, o⟩, e1, h⟩ := Outcome.exists_of_is h
  simp only [Bool.and_eq_true, beq_iff_eq] at h
  obtain ⟨rfl, h⟩ := h
  obtain ⟨⟨w, outs'⟩, e2, h⟩ := Outcome.exists_of_is h
  exact ⟨w, ⟨.coSimulation, v, w₀, 0, o, Ex.reach_runCS3 e, e1, Ex.calls3 ops' .none e2 fun op h _ => hops op h⟩, h⟩

end C69

/-- **C69 is violated** by `fmi3Reset` of StateSpace: it keeps the value of `x0` that was set before, although the model
description declares the start value `0 0 0` (StateSpace/model.c 5-37 assigns no `x0`). -/
theorem FMI3.C69_violated : ∃ w : FMI3.World XRat _, FMI3.Renewed StateSpace.model w ∧
    FMI3.ReadsArray StateSpace.model w 8 [.fin 5, .fin 6, .fin 7] := by
  obtain ⟨w, hr, h⟩ := C69.renewed3 (m := StateSpace.model) (emu := false) (era := false)
    (ops := [.set .float64 (some [8]) 1 (some [.fin 5, .fin 6, .fin 7]) 3]) (ops' := Ex.init3)
    (q := fun w => decide (w.inst.ctx.state = .stepMode) && decide ((List.range 3).map w.inst.mv.data.x0 = [.fin 5, .fin 6, .fin 7]))
    (by decide +kernel) (by simp [Ex.init3, FMI3.Leaves, FMI3.Op.fn])
  simp only [Bool.and_eq_true, decide_eq_true_eq] at h
  have hd := hr.started RefFMU3.stateSpace.eff StateSpace.reads_upTo
  obtain ⟨h1, h2, h3⟩ := StateSpace.Started.bounds hd
  have := StateSpace.reads_block (w := w) (vr := 8) (by simp [StateSpace.inBounds, h1, h2, h3, StateSpace.maxDim]) (by rw [h.1]; decide) (by decide) (by decide)
  have e : StateSpace.block (StateSpace.upd w.inst.mv.data) 8 = (List.range w.inst.mv.data.n).map w.inst.mv.data.x0 := rfl
  rw [e, h2, h.2] at this
  exact ⟨w, hr, this⟩

/-- A new instance of BouncingBall after the initialisation. -/
example : ∃ w : FMI2.World XRat _, FMI2.Untouched BouncingBall.model w ∧ w.inst.ctx.state = .stepComplete ∧
    FMI2.Reads BouncingBall.model w .float64 5 (.fin (-981 / 100)) := by
  obtain ⟨⟨w, outs⟩, e, hs⟩ := Outcome.exists_of_is (r := Ex.run2 (BouncingBall.model : Model XRat _) .coSimulation Ex.init2)
    (p := fun x => decide (x.1.inst.ctx.state = .stepComplete)) (by decide +kernel)
  simp only [decide_eq_true_eq] at hs
  have hu := C69.untouched2 e (by simp [Ex.init2, FMI2.Leaves, FMI2.Op.fn])
  have := FMI2.C69 .bouncingBall (.inl hu) (by rw [hs]; decide) ⟨.float64, 5, _⟩ (.tail _ (.tail _ (.head _)))
  have e : Arith.neg (Arith.lit (981 / 100)) = XRat.fin (-981 / 100) := by decide +kernel
  exact ⟨w, hu, hs, e ▸ this⟩

/-- BouncingBall reset after a parameter was set and a step was made. -/
example : ∃ w : FMI2.World XRat _, FMI2.Renewed BouncingBall.model w ∧
    FMI2.Reads BouncingBall.model w .float64 1 (.fin 1) ∧ FMI2.Reads BouncingBall.model w .float64 6 (.fin (7 / 10)) := by
  obtain ⟨w, hr, h⟩ := C69.renewed2 (m := BouncingBall.model) (t := .coSimulation)
    (ops := .setReal (some [6]) 1 (some [.fin (1 / 2)]) :: Ex.init2 ++ [.doStep (.fin 0) (.fin (1 / 100))]) (ops' := Ex.init2)
    (q := fun w => decide (w.inst.ctx.state = .stepComplete)) (by decide +kernel) (by simp [Ex.init2, FMI2.Leaves, FMI2.Op.fn])
  simp only [decide_eq_true_eq] at h
  have := FMI2.C69 .bouncingBall (.inr hr) (by rw [h]; decide)
  exact ⟨w, hr, this (.float64 1 1) (.head _), this (.float64 6 (7 / 10)) (.tail _ (.tail _ (.tail _ (.head _))))⟩

/-- A new instance of Feedthrough for FMI 3.0 after the initialisation. -/
example : ∃ w : FMI3.World XRat _, FMI3.Untouched (Feedthrough.model true) w ∧
    FMI3.Reads (Feedthrough.model true) w .string 29 (some setMe) ∧ FMI3.Reads (Feedthrough.model true) w .int64 33 (1 : Int) := by
  obtain ⟨⟨w, outs⟩, e, hs⟩ := Outcome.exists_of_is (r := Ex.runCS3 (Feedthrough.model true : Model XRat _) false false Ex.init3)
    (p := fun x => decide (x.1.inst.ctx.state = .stepMode)) (by decide +kernel)
  simp only [decide_eq_true_eq] at hs
  have hu := C69.untouched3 e (by simp [Ex.init3, FMI3.Leaves, FMI3.Op.fn])
  have := FMI3.C69 .feedthrough (.inl hu)
  exact ⟨w, hu, this ⟨.string, 29, some setMe⟩ (by simp [Feedthrough.starts3]) (by rw [hs]; decide),
    this ⟨.int64, 33, (1 : Int)⟩ (by simp [Feedthrough.starts3]) (by rw [hs]; decide)⟩

/-- StateSpace reset after its matrix `A` was set. -/
example : ∃ w : FMI3.World XRat _, FMI3.Renewed StateSpace.model w ∧ FMI3.Reads StateSpace.model w .uint64 2 (3 : Int) ∧
    FMI3.ReadsArray StateSpace.model w 4 ([1, 0, 0, 0, 1, 0, 0, 0, 1].map XRat.fin) := by
  obtain ⟨w, hr, h⟩ := C69.renewed3 (m := StateSpace.model) (emu := false) (era := false)
    (ops := [.set .float64 (some [4]) 1 (some (List.replicate 9 (.fin 5))) 9]) (ops' := Ex.init3)
    (q := fun w => decide (w.inst.ctx.state = .stepMode)) (by decide +kernel) (by simp [Ex.init3, FMI3.Leaves, FMI3.Op.fn])
  simp only [decide_eq_true_eq] at h
  obtain ⟨h1, h2⟩ := FMI3.C69_stateSpace_partial (.inr hr) (by rw [h]; decide)
  exact ⟨w, hr, h1 ⟨.uint64, 2, (3 : Int)⟩ (.tail _ (.head _)), h2 (4, _) (.head _)⟩

/-- A new instance of StateSpace. -/
example : ∃ w : FMI3.World XRat _, FMI3.Untouched StateSpace.model w ∧ FMI3.ReadsArray StateSpace.model w 8 [.fin 0, .fin 0, .fin 0] := by
  obtain ⟨⟨w, outs⟩, e, hs⟩ := Outcome.exists_of_is (r := Ex.runCS3 (StateSpace.model : Model XRat _) false false Ex.init3)
    (p := fun x => decide (x.1.inst.ctx.state = .stepMode)) (by decide +kernel)
  simp only [decide_eq_true_eq] at hs
  have hu := C69.untouched3 e (by simp [Ex.init3, FMI3.Leaves, FMI3.Op.fn])
  exact ⟨w, hu, FMI3.C69_x0 hu (by rw [hs]; decide)⟩

end Verif
