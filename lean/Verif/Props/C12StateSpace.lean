import Verif.Props.C61StateSpace
import Verif.Props.C37Total

/-!
# C12: the arrays of StateSpace are read back as they were set

The independent variables of StateSpace are the matrices A (value reference 4), B (5), C (6) and D (7), the vectors x0 (8), u (9) and x (11),
the time (0) and the dimensions.
-/

set_option linter.unusedSectionVars false

namespace Verif.FMI3
variable {F : Type} [Arith F] [HasInf F]

theorem StateSpace.set_data {ctx : Ctx F} {mv : MV F (StateSpace.Data F)} (hd : StateSpace.dims3 mv.data) {vr : Nat} {l : List F}
    (hv : StateSpace.settable ctx.state .float64 vr) (hl : l.length = StateSpace.elements 3 3 3 vr) :
    ∃ d', StateSpace.setFloat64 ctx mv vr (some l) l.length 0 = .ret ({ mv with data := d', isDirtyValues := true }, .OK, l.length) ∧
      StateSpace.dims3 d' ∧ StateSpace.block (StateSpace.upd d') vr = l ∧ 4 ≤ vr ∧ vr ≤ 12 ∧
      ∀ vr' ∈ [4, 5, 6, 7, 8, 9, 11], vr' ≠ vr → StateSpace.block (StateSpace.upd d') vr' = StateSpace.block (StateSpace.upd mv.data) vr' := by
  have hb := StateSpace.inBounds3 hd
  obtain ⟨h1, h2, h3⟩ := id hd
  have take : ∀ n (f : List F → StateSpace.Data F), l.length = n → StateSpace.takeBlock ctx mv (some l) l.length 0 n f =
      .ret ({ mv with data := f l, isDirtyValues := true }, .OK, l.length) := by
    rintro n f rfl
    rw [StateSpace.takeBlock, assertNValues, if_neg (by omega), StateSpace.guarded, if_pos hb, readN_eq _ _ _ (by omega)]
    simp
  let d := mv.data
  have hn : d.n = 3 := h2
  have hm : d.m = 3 := h1
  have hr : d.r = 3 := h3
  have hvr : vr = 4 ∨ vr = 5 ∨ vr = 6 ∨ vr = 7 ∨ vr = 8 ∨ vr = 9 ∨ vr = 11 := by
    obtain ⟨-, h⟩ := hv; omega
  rcases hvr with rfl | rfl | rfl | rfl | rfl | rfl | rfl
  · refine ⟨{ d with A := StateSpace.fillMatrix d.n d.n l d.A }, take (d.n * d.n) (fun l => { d with A := StateSpace.fillMatrix d.n d.n l d.A })
      (by rw [hn]; exact hl), hd, StateSpace.entries_fill _ _ _ _ (by rw [hn]; exact hl), by decide, by decide, ?_⟩
    intro v hv hne
    simp only [List.mem_cons, List.not_mem_nil, or_false] at hv
    rcases hv with rfl | rfl | rfl | rfl | rfl | rfl | rfl <;> first | exact absurd rfl hne | rfl
  · refine ⟨{ d with B := StateSpace.fillMatrix d.n d.m l d.B }, take (d.n * d.m) (fun l => { d with B := StateSpace.fillMatrix d.n d.m l d.B })
      (by rw [hn, hm]; exact hl), hd, ?_, by decide, by decide, ?_⟩
    · have := StateSpace.entries_fill d.n d.m l d.B (by rw [hn, hm]; exact hl)
      show StateSpace.entries d.m d.n (StateSpace.fillMatrix d.n d.m l d.B) = l
      rw [hn, hm] at this ⊢
      exact this
    intro v hv hne
    simp only [List.mem_cons, List.not_mem_nil, or_false] at hv
    rcases hv with rfl | rfl | rfl | rfl | rfl | rfl | rfl <;> first | exact absurd rfl hne | rfl
  · refine ⟨{ d with C := StateSpace.fillMatrix d.r d.n l d.C }, take (d.r * d.n) (fun l => { d with C := StateSpace.fillMatrix d.r d.n l d.C })
      (by rw [hn, hr]; exact hl), hd, StateSpace.entries_fill _ _ _ _ (by rw [hn, hr]; exact hl), by decide, by decide, ?_⟩
    intro v hv hne
    simp only [List.mem_cons, List.not_mem_nil, or_false] at hv
    rcases hv with rfl | rfl | rfl | rfl | rfl | rfl | rfl <;> first | exact absurd rfl hne | rfl
  · refine ⟨{ d with D := StateSpace.fillMatrix d.r d.m l d.D }, take (d.r * d.m) (fun l => { d with D := StateSpace.fillMatrix d.r d.m l d.D })
      (by rw [hm, hr]; exact hl), hd, StateSpace.entries_fill _ _ _ _ (by rw [hm, hr]; exact hl), by decide, by decide, ?_⟩
    intro v hv hne
    simp only [List.mem_cons, List.not_mem_nil, or_false] at hv
    rcases hv with rfl | rfl | rfl | rfl | rfl | rfl | rfl <;> first | exact absurd rfl hne | rfl
  · refine ⟨{ d with x0 := StateSpace.fillVector d.n l d.x0 }, take d.n (fun l => { d with x0 := StateSpace.fillVector d.n l d.x0 })
      (by rw [hn]; exact hl), hd, StateSpace.elems_fill _ _ _ (by rw [hn]; exact hl), by decide, by decide, ?_⟩
    intro v hv hne
    simp only [List.mem_cons, List.not_mem_nil, or_false] at hv
    rcases hv with rfl | rfl | rfl | rfl | rfl | rfl | rfl <;> first | exact absurd rfl hne | rfl
  · refine ⟨{ d with u := StateSpace.fillVector d.m l d.u }, take d.m (fun l => { d with u := StateSpace.fillVector d.m l d.u })
      (by rw [hm]; exact hl), hd, StateSpace.elems_fill _ _ _ (by rw [hm]; exact hl), by decide, by decide, ?_⟩
    intro v hv hne
    simp only [List.mem_cons, List.not_mem_nil, or_false] at hv
    rcases hv with rfl | rfl | rfl | rfl | rfl | rfl | rfl <;> first | exact absurd rfl hne | rfl
  · refine ⟨{ d with x := StateSpace.fillVector d.n l d.x }, ?_, hd, StateSpace.elems_fill _ _ _ (by rw [hn]; exact hl), by decide, by decide, ?_⟩
    · refine Eq.trans ?_ (take d.n (fun l => { d with x := StateSpace.fillVector d.n l d.x }) (by rw [hn]; exact hl))
      simp only [StateSpace.setFloat64, assertNotNull, Option.isNone_some, Bool.false_eq_true, if_false]
      obtain ⟨-, h | ⟨-, hx⟩⟩ := hv
      · omega
      · rw [if_neg (by rcases hx with hx | hx <;> simp [hx])]
    intro v hv hne
    simp only [List.mem_cons, List.not_mem_nil, or_false] at hv
    rcases hv with rfl | rfl | rfl | rfl | rfl | rfl | rfl <;> first | exact absurd rfl hne | rfl

/-- **C12** for StateSpace: if setting an array returns `fmi3OK`, whatever calls were made before, the array reads as the values set. Every
other matrix and vector that does not depend on others has a value that reads the same before and after the call, and so do the time and
the dimensions. -/
theorem C12_stateSpace {it : IType} {w w' : World F (StateSpace.Data F)} (hw : Reachable StateSpace.model it w)
    (ht : w.inst.ctx.state ≠ .terminated) {vr : Nat} {l : List F} {fuel : Nat} {o}
    (e : step StateSpace.model fuel w (.set .float64 (some [vr]) 1 (some l) l.length) = .ret (w', .OK, o)) :
    ReadsArray StateSpace.model w' vr l ∧
    (∀ vr' ∈ [4, 5, 6, 7, 8, 9, 11], vr' ≠ vr → ∃ l', ReadsArray StateSpace.model w vr' l' ∧ ReadsArray StateSpace.model w' vr' l') ∧
    (∃ time, Reads StateSpace.model w .float64 0 time ∧ Reads StateSpace.model w' .float64 0 time) ∧
    ∀ vr' ∈ [1, 2, 3], Reads StateSpace.model w' .uint64 vr' (3 : Int) := by
  have hok := (RefFMU3.stateSpace (F := F)).eff.okOrError
  obtain ⟨hm, ha⟩ := (C61_stateSpace_partial hw ht (by simp [Op.fn]) e).1 rfl
  obtain ⟨rs, h1, h2, h3, h4, -⟩ := ha.resolve_left (by simp)
  obtain rfl : rs = [vr] := RefsAt.unique (refsAt_zero.2 h2) (refsAt_zero.2 fun i r h => ⟨[vr], rfl, h⟩) h1
  have hv := h3 vr (by simp)
  have hd := (StateSpace.Dim.reachable hw).resolve_left ht
  have hl : l.length = StateSpace.elements 3 3 3 vr := by simpa [StateSpace.count] using h4.symm
  obtain ⟨d', g1, g2, g3, g4, g5, g6⟩ := StateSpace.set_data hd hv hl
  have ha : allowed w.inst.ctx (setMask .float64) = true := (allowed_fn w.inst.ctx (.set .float64)).2 hm
  have hs : w.inst.ctx.state ∈ Spec.allowedIn (.get .float64) := hw.readable hok
  have e' : step StateSpace.model fuel w (.set .float64 (some [vr]) 1 (some l) l.length) =
      .ret ({ w with inst := { w.inst with mv := { w.inst.mv with data := d', isDirtyValues := true } } }, .OK, .unit) := by
    simp only [step, World.run, setVars]
    rw [begin_ok (mask := setMask .float64) ha]
    simp only [Nat.one_ne_zero, if_false, assertNonNull, Option.isNone_some, Bool.false_eq_true, setLoop, Ptr.read, List.getElem?_cons_zero,
      Outcome.ret_bind]
    rw [show (StateSpace.model (F := F)).set .float64 = StateSpace.setFloat64 from rfl, g1]
    simp only [Comp.lift, Outcome.ret_bind, call_OK]
    simp [Comp.setDirty]
  rw [e'] at e
  cases e
  have hb := StateSpace.inBounds3 hd
  have hb' := StateSpace.inBounds3 g2
  refine ⟨?_, ?_, ⟨w.inst.ctx.time, StateSpace.reads_time hb hs, StateSpace.reads_time hb' hs⟩, ?_⟩
  · have := StateSpace.reads_block (w := { w with inst := { w.inst with mv := { w.inst.mv with data := d', isDirtyValues := true } } })
      (vr := vr) hb' hs g4 g5
    rwa [g3] at this
  · intro vr' hv' hne
    have hr : 4 ≤ vr' ∧ vr' ≤ 12 := by
      simp only [List.mem_cons, List.not_mem_nil, or_false] at hv'; omega
    have := StateSpace.reads_block (w := { w with inst := { w.inst with mv := { w.inst.mv with data := d', isDirtyValues := true } } })
      (vr := vr') hb' hs hr.1 hr.2
    rw [g6 vr' hv' hne] at this
    exact ⟨_, StateSpace.reads_block hb hs hr.1 hr.2, this⟩
  · intro vr' hv'
    obtain ⟨r1, r2, r3⟩ := StateSpace.reads_three (w := { w with inst := { w.inst with mv := { w.inst.mv with data := d', isDirtyValues := true } } })
      g2 hs
    simp only [List.mem_cons, List.not_mem_nil, or_false] at hv'
    rcases hv' with rfl | rfl | rfl
    · exact r1
    · exact r2
    · exact r3

/-- Non-vacuity: B is set after a step of a Co-Simulation; B reads as set, and A is still the identity matrix. -/
example : (Ex.runCS3 (StateSpace.model : Model XRat _) false false (Ex.init3 ++ [.doStep (.fin 0) (.fin (1 / 1000)) Ex.stepOut,
      .set .float64 (some [5]) 1 (some ([1, 2, 3, 4, 5, 6, 7, 8, 9].map .fin)) 9,
      .get .float64 (some [5]) 1 (some (List.replicate 9 (.fin 0))) 9, .get .float64 (some [4]) 1 (some (List.replicate 9 (.fin 0))) 9])).is (fun x =>
      x.2.drop 3 == [(.OK, .unit), (.OK, .values .float64 (some ([1, 2, 3, 4, 5, 6, 7, 8, 9].map .fin))),
        (.OK, .values .float64 (some ([1, 0, 0, 0, 1, 0, 0, 0, 1].map .fin)))]) = true := by
  decide +kernel

end Verif.FMI3
