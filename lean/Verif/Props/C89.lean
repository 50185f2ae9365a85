import Verif.Spec.ClockedVariables
import Verif.Lemmas.ClocksRun
import Verif.Lemmas.Readable
import Verif.Lemmas.ExReach

/-!
# C89: an output of Clocks changes only when one of its clocks ticks

`C89_held`: while none of the clocks that the model description lists for an output is activated, the output keeps its
value, whatever other calls are made and whether they succeed or not. `C89_determined`: the value after an activation depends
only on the value before it and on the listed inputs, not on the other variables, the time or the history.
-/

set_option linter.unusedSectionVars false

namespace Verif.FMI3
open Clocks
variable {F : Type} [Arith F] [HasInf F]

/-- The value of an output of Clocks. -/
theorem C89.value {w : World F (Data F)} {r : Nat} (hr : r ∈ [2001, 2002, 2003, 2004, 2005, 2006, 2007]) {a : Int}
    (h : Reads model w .int32 r a) : intVar w.inst.mv.data r = some a := by
  simp only [List.mem_cons, List.not_mem_nil, or_false] at hr
  rcases hr with rfl | rfl | rfl | rfl | rfl | rfl | rfl <;>
    exact (congrArg some (h.unique (reads_lens Lens.clocks (by simp) h.allowed))).symm

theorem C89.outputs_mem {r : Nat} {clocks : List Nat} (hr : (r, clocks) ∈ outputs) :
    r ∈ [2001, 2002, 2003, 2004, 2005, 2006, 2007] := by
  simp only [outputs, List.mem_cons, Prod.mk.injEq, List.not_mem_nil, or_false] at hr ⊢
  omega

/-- Only the model partitions change an output. -/
theorem C89.step_output {r : Nat} {clocks : List Nat} (hr : (r, clocks) ∈ outputs) {f : MFn} {ctx : Ctx F}
    {mv mv' : MV F (Data F)} {s} (hf : f ≠ .partition) (e : MStep (model : Model F (Data F)) f ctx mv mv' s) :
    intVar mv'.data r = intVar mv.data r := by
  by_cases h : f ∉ moving
  · rw [step_still h e]
  · simp only [moving, Classical.not_not, List.mem_cons, List.not_mem_nil, or_false] at h
    simp only [outputs, List.mem_cons, Prod.mk.injEq, List.not_mem_nil, or_false] at hr
    have same : mv'.data.inClock1Ticks = mv.data.inClock1Ticks ∧ mv'.data.inClock2Ticks = mv.data.inClock2Ticks ∧
        mv'.data.inClock3Ticks = mv.data.inClock3Ticks ∧ mv'.data.totalInClockTicks = mv.data.totalInClockTicks ∧
        mv'.data.result2 = mv.data.result2 ∧ mv'.data.output3 = mv.data.output3 := by
      rcases h with rfl | rfl | rfl | rfl
      · cases e
        next t vr p n i b e =>
        cases t
        case int32 =>
          simp only [model, setInt32, assertNValues] at e
          split at e
          · unfold failM Verif.logError at e; split at e <;> cases e <;> exact ⟨rfl, rfl, rfl, rfl, rfl, rfl⟩
          · split at e
            · obtain ⟨v, e1, e⟩ := Outcome.bind_eq_ret.1 e
              cases e; exact ⟨rfl, rfl, rfl, rfl, rfl, rfl⟩
            · unfold failM Verif.logError at e; split at e <;> cases e <;> exact ⟨rfl, rfl, rfl, rfl, rfl, rfl⟩
        all_goals
          simp only [model] at e; unfold setStub failM Verif.logError at e
          split at e <;> cases e <;> exact ⟨rfl, rfl, rfl, rfl, rfl, rfl⟩
      · cases e
        next e =>
        simp only [model, Clocks.getClock] at e
        split at e
        · cases e; exact ⟨rfl, rfl, rfl, rfl, rfl, rfl⟩
        · unfold failM Verif.logError at e; split at e <;> cases e <;> exact ⟨rfl, rfl, rfl, rfl, rfl, rfl⟩
      · cases e
        next e =>
        simp only [model, getInterval] at e
        split at e
        · split at e <;> cases e <;> exact ⟨rfl, rfl, rfl, rfl, rfl, rfl⟩
        · unfold failM Verif.logError at e; split at e <;> cases e <;> exact ⟨rfl, rfl, rfl, rfl, rfl, rfl⟩
      · exact absurd rfl hf
    obtain ⟨h1, h2, h3, h4, h5, h6⟩ := same
    rcases hr with ⟨rfl, -⟩ | ⟨rfl, -⟩ | ⟨rfl, -⟩ | ⟨rfl, -⟩ | ⟨rfl, -⟩ | ⟨rfl, -⟩
    · exact congrArg some h1
    · exact congrArg some h2
    · exact congrArg some h3
    · exact congrArg some h4
    · exact congrArg some h5
    · exact congrArg some h6

/-- The data after the call of `fmi3ActivateModelPartition`. -/
theorem C89.activate {fuel : Nat} {w w' : World F (Data F)} {clock : Nat} {t : F} {s o}
    (e : step model fuel w (.activateModelPartition clock t) = .ret (w', s, o)) :
    s = .OK ∧ clock ∈ [1001, 1002, 1003] ∧ w'.inst.mv.data = activated w.inst.mv.data clock t ∨
      s ≠ .OK ∧ w'.inst.mv.data = w.inst.mv.data := by
  simp only [step] at e
  obtain ⟨c, b, e1, rfl⟩ := run_ret e
  unfold FMI3.activateModelPartition callLast begin beginFunction at e1
  simp only at e1
  split at e1
  · obtain ⟨⟨c1, s1, u⟩, e2, e3⟩ := Outcome.bind_eq_ret.1 e1
    obtain ⟨mv, e4, rfl⟩ := lift_eq_ret.1 e2
    rcases activate_data e4 with ⟨rfl, h1, h2⟩ | ⟨rfl, h2⟩
    · cases e3; exact .inl ⟨rfl, h1, h2⟩
    · cases e3; exact .inr ⟨by simp, h2⟩
  · cases e1
    refine .inr ⟨by simp, ?_⟩
    simp only [Comp.logError, Verif.logError]
    split <;> rfl

/-- The activation of a clock that an output does not list. -/
theorem C89.activated_other {r : Nat} {clocks : List Nat} (hr : (r, clocks) ∈ outputs) {d : Data F} {clock : Nat}
    (hc : clock ∈ [1001, 1002, 1003]) (hn : clock ∉ clocks) (t : F) : intVar (activated d clock t) r = intVar d r := by
  simp only [outputs, List.mem_cons, Prod.mk.injEq, List.not_mem_nil, or_false] at hr hc
  rcases hc with rfl | rfl | rfl <;>
    rcases hr with ⟨rfl, rfl⟩ | ⟨rfl, rfl⟩ | ⟨rfl, rfl⟩ | ⟨rfl, rfl⟩ | ⟨rfl, rfl⟩ | ⟨rfl, rfl⟩ <;>
    first
    | rfl
    | exact absurd (by decide) hn

/-- One call. -/
theorem C89.step_held {r : Nat} {clocks : List Nat} (hr : (r, clocks) ∈ outputs) {fuel : Nat} {w w' : World F (Data F)} {op : Op F}
    {s o} (hop : ¬ Disturbs clocks op) (e : step model fuel w op = .ret (w', s, o)) :
    intVar w'.inst.mv.data r = intVar w.inst.mv.data r := by
  by_cases hp : ∃ clock t, op = .activateModelPartition clock t
  · obtain ⟨clock, t, rfl⟩ := hp
    rcases C89.activate e with ⟨-, hc, h⟩ | ⟨-, h⟩
    · rw [h]; exact C89.activated_other hr hc hop t
    · rw [h]
  · refine step_keepX Clocks.eff.okOrError (data_inv (B := [MFn.partition])
      (P := fun d : Data F => intVar d r = intVar w.inst.mv.data r)
      (fun hf hp e => (C89.step_output hr (by simpa using hf) e).trans hp) (by simp [MFn.solver]))
      (fun _ _ _ _ => trivial) rfl (fun _ _ _ _ h => h) ?_ _ e
    rintro (h | h | ⟨f, hf, h⟩)
    · cases op <;> simp [Op.fn] at h; exact hop trivial
    · cases op <;> simp [Op.fn] at h; exact hop trivial
    · simp only [List.mem_cons, List.not_mem_nil, or_false] at h
      subst h
      have := Fn.calls_partition.1 hf
      cases op <;> simp [Op.fn] at this
      exact hp ⟨_, _, rfl⟩

/-- **C89**: an output of Clocks keeps its value while none of its clocks is activated, whatever other calls the importer
makes, with any arguments and results, unless it resets the instance or restores an FMU state. -/
theorem C89_held {r : Nat} {clocks : List Nat} (hr : (r, clocks) ∈ outputs) {fuel : Nat} {ops : List (Op F)}
    {w w' : World F (Data F)} {outs} (hops : ∀ op ∈ ops, ¬ Disturbs clocks op) (e : run model fuel w ops = .ret (w', outs)) {a b : Int}
    (ha : Reads model w .int32 r a) (hb : Reads model w' .int32 r b) : b = a := by
  have key : ∀ (ops : List (Op F)) {w w' : World F (Data F)} {outs}, (∀ op ∈ ops, ¬ Disturbs clocks op) →
      run model fuel w ops = .ret (w', outs) → intVar w'.inst.mv.data r = intVar w.inst.mv.data r := by
    intro ops
    induction ops with
    | nil => intro w w' outs _ e; cases e; rfl
    | cons op ops ih =>
      intro w w' outs h e
      rw [run] at e
      obtain ⟨⟨w1, s, o⟩, e1, e⟩ := Outcome.bind_eq_ret.1 e
      obtain ⟨⟨w2, l⟩, e2, e⟩ := Outcome.bind_eq_ret.1 e
      cases e
      exact (ih (fun op h' => h op (by simp [h'])) e2).trans (C89.step_held hr (h op (by simp)) e1)
  have h1 := C89.value (C89.outputs_mem hr) ha
  have h2 := C89.value (C89.outputs_mem hr) hb
  have := key ops hops e
  rw [h1, h2] at this
  exact Option.some.inj this

/-- **C89**: what an output becomes when a clock is activated depends only on its value before and on the inputs that the model
description lists. -/
theorem C89_determined {r : Nat} {clocks : List Nat} (hr : (r, clocks) ∈ outputs) {clock fuel fuel' : Nat} {t t' : F}
    {w w₁ v v₁ : World F (Data F)} {o o'} (e : step model fuel w (.activateModelPartition clock t) = .ret (w₁, .OK, o))
    (e' : step model fuel' v (.activateModelPartition clock t') = .ret (v₁, .OK, o')) {a : Int}
    (ha : Reads model w .int32 r a) (ha' : Reads model v .int32 r a)
    (hin : ∀ i ∈ inputsOf r, ∃ x : Int, Reads model w .int32 i x ∧ Reads model v .int32 i x) {b b' : Int}
    (hb : Reads model w₁ .int32 r b) (hb' : Reads model v₁ .int32 r b') : b = b' := by
  have h1 := C89.value (C89.outputs_mem hr) ha
  have h1' := C89.value (C89.outputs_mem hr) ha'
  have h2 := C89.value (C89.outputs_mem hr) hb
  have h2' := C89.value (C89.outputs_mem hr) hb'
  obtain ⟨-, hc, hd⟩ | ⟨h, -⟩ := C89.activate e
  rotate_left
  · exact absurd rfl h
  obtain ⟨-, -, hd'⟩ | ⟨h, -⟩ := C89.activate e'
  rotate_left
  · exact absurd rfl h
  rw [hd] at h2
  rw [hd'] at h2'
  have hi : r = 2005 → w.inst.mv.data.input2 = v.inst.mv.data.input2 := by
    rintro rfl
    obtain ⟨x, hx, hx'⟩ := hin 2006 (by decide)
    have g := C89.value (r := 2006) (by decide) hx
    have g' := C89.value (r := 2006) (by decide) hx'
    exact Option.some.inj (g.trans g'.symm)
  simp only [outputs, List.mem_cons, Prod.mk.injEq, List.not_mem_nil, or_false] at hr hc
  rcases hc with rfl | rfl | rfl <;>
    rcases hr with ⟨rfl, -⟩ | ⟨rfl, -⟩ | ⟨rfl, -⟩ | ⟨rfl, -⟩ | ⟨rfl, -⟩ | ⟨rfl, -⟩ <;>
    simp [activated, setOutClock, intVar] at h1 h1' h2 h2' hi <;> omega

/-- Non-vacuity of both: before the calls `inClock2` was activated with input 7. Then come a successful set, activations of the
other clocks, a read, a failing set and a call that is not allowed. `result2` stays 7. -/
example : ∃ (w w' : World XRat (Data XRat)) (outs : List (Status × Out XRat)) (ops : List (Op XRat)),
    (∀ op ∈ ops, ¬ Disturbs [1002] op) ∧ run model 1000 w ops = .ret (w', outs) ∧ outs.length = 6 ∧
    Reads model w .int32 2005 (7 : Int) ∧ Reads model w' .int32 2005 (7 : Int) ∧
    Reads model w .int32 2004 (1 : Int) ∧ Reads model w' .int32 2004 (3 : Int) := by
  have h1 := Outcome.exists_of_is (r := Ex.runSE3 (Clocks.model : Model XRat _) (Ex.init3 ++
    [.set .int32 (some [2006]) 1 (some [7]) 1, .activateModelPartition 1002 (.fin 0)])) (p := fun x => Ex.allOK x.2 &&
      (run model 1000 x.1 [.set .int32 (some [2006]) 1 (some [9]) 1,
        .activateModelPartition 1001 (.fin 1), .getClock (some [1005]) 1 (some [false]), .activateModelPartition 1003 (.fin 1),
        .set .int32 (some [2005]) 1 (some [9]) 1, .enterEventMode]).is fun y => decide (x.1.inst.ctx.state = .clockActivationMode) &&
        (decide (y.1.inst.ctx.state ∈ Spec.allowedIn (.get .int32)) && (decide (y.2.length = 6) &&
        (decide (x.1.inst.mv.data.result2 = 7) && (decide (y.1.inst.mv.data.result2 = 7) &&
        (decide (x.1.inst.mv.data.totalInClockTicks = 1) && decide (y.1.inst.mv.data.totalInClockTicks = 3))))))) (by decide +kernel)
  obtain ⟨⟨w, outs⟩, e, h⟩ := h1
  simp only [Bool.and_eq_true] at h
  obtain ⟨⟨w', outs'⟩, e', h'⟩ := Outcome.exists_of_is h.2
  simp only [Bool.and_eq_true, decide_eq_true_eq] at h'
  obtain ⟨hs, hs', hl, r1, r2, r3, r4⟩ := h'
  have hs1 : w.inst.ctx.state ∈ Spec.allowedIn (.get .int32) := by rw [hs]; decide
  refine ⟨w, w', outs', _, ?_, e', hl, ?_, ?_, ?_, ?_⟩
  · intro op hop
    simp only [List.mem_cons, List.not_mem_nil, or_false] at hop
    rcases hop with rfl | rfl | rfl | rfl | rfl | rfl <;> simp [Disturbs]
  · rw [← r1]; exact reads_lens Lens.clocks (by simp) hs1
  · rw [← r2]; exact reads_lens Lens.clocks (by simp) hs'
  · rw [← r3]; exact reads_lens Lens.clocks (by simp) hs1
  · rw [← r4]; exact reads_lens Lens.clocks (by simp) hs'

/-- Non-vacuity of `C89_determined`: two instances with different histories and times. -/
example : ∃ (w w₁ v v₁ : World XRat (Data XRat)) (o o' : Out XRat),
    step model 1000 w (.activateModelPartition 1002 (.fin 1)) = .ret (w₁, .OK, o) ∧
    step model 1000 v (.activateModelPartition 1002 (.fin 5)) = .ret (v₁, .OK, o') ∧
    (Reads model w .int32 2005 (7 : Int) ∧ Reads model v .int32 2005 (7 : Int)) ∧
    (Reads model w .int32 2006 (2 : Int) ∧ Reads model v .int32 2006 (2 : Int)) ∧
    (Reads model w .int32 2001 (0 : Int) ∧ Reads model v .int32 2001 (1 : Int)) ∧
    Reads model w₁ .int32 2005 (9 : Int) ∧ Reads model v₁ .int32 2005 (9 : Int) := by
  have run1 : ∀ (ops : List (Op XRat)) (t : XRat) (n : Int), ((Ex.runSE3 (Clocks.model : Model XRat _) ops).is fun x => Ex.allOK x.2 &&
      (step model 1000 x.1 (.activateModelPartition 1002 t)).is fun y => decide (y.2.1 = .OK) &&
        (decide (x.1.inst.ctx.state = .clockActivationMode) && (decide (y.1.inst.ctx.state = .clockActivationMode) &&
        (decide (x.1.inst.mv.data.result2 = 7) && (decide (x.1.inst.mv.data.input2 = 2) &&
        (decide (x.1.inst.mv.data.inClock1Ticks = n) && decide (y.1.inst.mv.data.result2 = 9))))))) = true →
      ∃ (w w₁ : World XRat (Data XRat)) (o : Out XRat), step model 1000 w (.activateModelPartition 1002 t) = .ret (w₁, .OK, o) ∧
        Reads model w .int32 2005 (7 : Int) ∧ Reads model w .int32 2006 (2 : Int) ∧ Reads model w .int32 2001 n ∧
        Reads model w₁ .int32 2005 (9 : Int) := by
    intro ops t n h
    obtain ⟨⟨w, outs⟩, e, h⟩ := Outcome.exists_of_is h
    simp only [Bool.and_eq_true] at h
    obtain ⟨⟨w₁, s, o⟩, e', h'⟩ := Outcome.exists_of_is h.2
    simp only [Bool.and_eq_true, decide_eq_true_eq] at h'
    obtain ⟨rfl, hs, hs', r1, r2, r3, r4⟩ := h'
    have hs1 : w.inst.ctx.state ∈ Spec.allowedIn (.get .int32) := by rw [hs]; decide
    have hs2 : w₁.inst.ctx.state ∈ Spec.allowedIn (.get .int32) := by rw [hs']; decide
    refine ⟨w, w₁, o, e', ?_, ?_, ?_, ?_⟩
    · rw [← r1]; exact reads_lens Lens.clocks (by simp) hs1
    · rw [← r2]; exact reads_lens Lens.clocks (by simp) hs1
    · rw [← r3]; exact reads_lens Lens.clocks (by simp) hs1
    · rw [← r4]; exact reads_lens Lens.clocks (by simp) hs2
  obtain ⟨w, w₁, o, e, a1, a2, a3, a4⟩ := run1 (Ex.init3 ++ [.set .int32 (some [2006]) 1 (some [7]) 1,
    .activateModelPartition 1002 (.fin 0), .set .int32 (some [2006]) 1 (some [2]) 1]) (.fin 1) 0 (by decide +kernel)
  obtain ⟨v, v₁, o', e', b1, b2, b3, b4⟩ := run1 (Ex.init3 ++ [.set .int32 (some [2006]) 1 (some [3]) 1,
    .activateModelPartition 1002 (.fin 0), .set .int32 (some [2006]) 1 (some [4]) 1, .activateModelPartition 1002 (.fin 0),
    .activateModelPartition 1001 (.fin 4), .set .int32 (some [2006]) 1 (some [2]) 1]) (.fin 5) 1 (by decide +kernel)
  exact ⟨w, w₁, v, v₁, o, o', e, e', ⟨a1, b1⟩, ⟨a2, b2⟩, ⟨a3, b3⟩, a4, b4⟩

end Verif.FMI3
