import Verif.Lemmas.StateSpace
import Verif.Lemmas.LensReads
import Verif.Spec.Elements

/-!
# C37: StateSpace

The structural parameters (UInt64 variables 1, 2, 3) read `nu` inputs, `nx` states and `ny` outputs. The output
equation holds for all dimensions. The state equation holds, and `B` is read back as written, only if all three
are equal: the code reads `B` out as an `nu` by `nx` matrix and multiplies it with `ny` inputs. `x0` has no effect.
-/

set_option linter.unusedSectionVars false

namespace Verif.FMI3
variable {F : Type} [Arith F] [HasInf F] {it : IType} {w : World F (StateSpace.Data F)} {nu nx ny : Nat}

/-- **C37**, outputs: `y = C x + D u` for the values as reported. -/
theorem C37_output (hw : Reachable StateSpace.model it w) (h1 : Reads StateSpace.model w .uint64 1 (nu : Int))
    (h2 : Reads StateSpace.model w .uint64 2 (nx : Int)) (h3 : Reads StateSpace.model w .uint64 3 (ny : Int))
    {C D x u y : List F}
    (lC : C.length = ny * nx) (lD : D.length = ny * nu) (lx : x.length = nx) (lu : u.length = nu) (ly : y.length = ny)
    (hC : ReadsArray StateSpace.model w 6 C) (hD : ReadsArray StateSpace.model w 7 D)
    (hx : ReadsArray StateSpace.model w 11 x) (hu : ReadsArray StateSpace.model w 9 u) (hy : ReadsArray StateSpace.model w 10 y)
    (i : Nat) (hi : i < ny) :
    y.getD i (Arith.lit 0) = addRow (addRow (Arith.lit 0) nx C x i) nu D u i := by
  have hs : w.inst.ctx.state ∈ Spec.allowedIn (.get .float64) := h1.allowed
  have hb := StateSpace.inBounds_reachable hw
  obtain ⟨rfl, rfl, rfl⟩ := StateSpace.reads_dims h1 h2 h3
  have r := fun {vr} h1 h2 => StateSpace.reads_block (vr := vr) hb hs h1 h2
  rw [hC.unique (r (by decide) (by decide)) (by rw [lC]; exact (StateSpace.length_entries ..).symm),
    hD.unique (r (by decide) (by decide)) (by rw [lD]; exact (StateSpace.length_entries ..).symm),
    hx.unique (r (by decide) (by decide)) (by rw [lx]; simp [StateSpace.block, StateSpace.elems, StateSpace.upd]),
    hu.unique (r (by decide) (by decide)) (by rw [lu]; simp [StateSpace.block, StateSpace.elems, StateSpace.upd]),
    hy.unique (r (by decide) (by decide)) (by rw [ly]; simp [StateSpace.block, StateSpace.elems, StateSpace.upd])]
  refine (StateSpace.elems_get hi _).trans ?_
  refine (if_pos hi).trans ?_
  symm
  refine StateSpace.addUp_congr (StateSpace.addUp_congr rfl fun j hj => ?_) fun j hj => ?_
  · exact congr (congrArg _ (StateSpace.entries_get hi hj _)) (StateSpace.elems_get hj _)
  · exact congr (congrArg _ (StateSpace.entries_get hi hj _)) (StateSpace.elems_get hj _)

/-- **C37**, states: `der(x) = A x + B u` for the values as reported. What is missing: dimensions that are not all
equal, see `C37_violated_der`. -/
theorem C37_state_partial (hw : Reachable StateSpace.model it w) (h1 : Reads StateSpace.model w .uint64 1 (nu : Int))
    (h2 : Reads StateSpace.model w .uint64 2 (nx : Int)) (h3 : Reads StateSpace.model w .uint64 3 (ny : Int))
    (e1 : nu = nx) (e2 : ny = nu) {A B x u der : List F}
    (lA : A.length = nx * nx) (lB : B.length = nx * nu) (lx : x.length = nx) (lu : u.length = nu) (ld : der.length = nx)
    (hA : ReadsArray StateSpace.model w 4 A) (hB : ReadsArray StateSpace.model w 5 B)
    (hx : ReadsArray StateSpace.model w 11 x) (hu : ReadsArray StateSpace.model w 9 u) (hd : ReadsArray StateSpace.model w 12 der)
    (i : Nat) (hi : i < nx) :
    der.getD i (Arith.lit 0) = addRow (addRow (Arith.lit 0) nx A x i) nu B u i := by
  have hs : w.inst.ctx.state ∈ Spec.allowedIn (.get .float64) := h1.allowed
  have hb := StateSpace.inBounds_reachable hw
  obtain ⟨rfl, rfl, rfl⟩ := StateSpace.reads_dims h1 h2 h3
  have r := fun {vr} h1 h2 => StateSpace.reads_block (vr := vr) hb hs h1 h2
  rw [hA.unique (r (by decide) (by decide)) (by rw [lA]; exact (StateSpace.length_entries ..).symm),
    hB.unique (r (by decide) (by decide)) (by rw [lB, Nat.mul_comm]; exact (StateSpace.length_entries ..).symm),
    hx.unique (r (by decide) (by decide)) (by rw [lx]; simp [StateSpace.block, StateSpace.elems, StateSpace.upd]),
    hu.unique (r (by decide) (by decide)) (by rw [lu]; simp [StateSpace.block, StateSpace.elems, StateSpace.upd]),
    hd.unique (r (by decide) (by decide)) (by rw [ld]; simp [StateSpace.block, StateSpace.elems, StateSpace.upd])]
  refine (StateSpace.elems_get hi _).trans ?_
  refine (if_pos hi).trans ?_
  rw [e2]
  symm
  refine StateSpace.addUp_congr (StateSpace.addUp_congr rfl fun j hj => ?_) fun j hj => ?_
  · exact congr (congrArg _ (StateSpace.entries_get hi hj _)) (StateSpace.elems_get hj _)
  · have := StateSpace.entries_get (M := w.inst.mv.data.B) (c := w.inst.mv.data.n) (show i < w.inst.mv.data.m by omega)
      (show j < w.inst.mv.data.n by omega) (Arith.lit 0)
    rw [show i * w.inst.mv.data.m + j = i * w.inst.mv.data.n + j by rw [e1]]
    exact congr (congrArg _ this) (StateSpace.elems_get hj _)

/-- The array variables that can be set: the matrices, x0 and u, and in Continuous-Time Mode and Event Mode x. -/
inductive Settable (w : World F (StateSpace.Data F)) : Nat → Prop
  | A : Settable w 4
  | B : Settable w 5
  | C : Settable w 6
  | D : Settable w 7
  | x0 : Settable w 8
  | u : Settable w 9
  | x : w.inst.ctx.state = .continuousTimeMode ∨ w.inst.ctx.state = .eventMode → Settable w 11

/-- **C37**, read-back: a matrix or vector that is set is read back unchanged. What is missing: `B` if the numbers of
inputs and states differ, see `C37_violated_B`. -/
theorem C37_readback_partial (hw : Reachable StateSpace.model it w) (h1 : Reads StateSpace.model w .uint64 1 (nu : Int))
    (h2 : Reads StateSpace.model w .uint64 2 (nx : Int)) (h3 : Reads StateSpace.model w .uint64 3 (ny : Int))
    (hm : w.inst.ctx.state ∈ Spec.allowedIn (.set .float64)) {vr : Nat} (hv : Settable w vr) (hB : vr = 5 → nu = nx) {l : List F} (hl : l.length = StateSpace.elements nu nx ny vr) (fuel : Nat) :
    ∃ w', step StateSpace.model fuel w (.set .float64 (some [vr]) 1 (some l) l.length) = .ret (w', .OK, .unit) ∧
      ReadsArray StateSpace.model w' vr l := by
  have hs : w.inst.ctx.state ∈ Spec.allowedIn (.get .float64) := h1.allowed
  have hb := StateSpace.inBounds_reachable hw
  obtain ⟨rfl, rfl, rfl⟩ := StateSpace.reads_dims h1 h2 h3
  have ha : allowed w.inst.ctx (setMask .float64) = true := (allowed_fn w.inst.ctx (.set .float64)).2 hm
  have key : ∀ d' : StateSpace.Data F, StateSpace.inBounds d' = true →
      StateSpace.setFloat64 w.inst.ctx w.inst.mv vr (some l) l.length 0 = .ret ({ w.inst.mv with data := d', isDirtyValues := true }, .OK, l.length) →
      4 ≤ vr → vr ≤ 12 → StateSpace.block (StateSpace.upd d') vr = l →
      ∃ w', step StateSpace.model fuel w (.set .float64 (some [vr]) 1 (some l) l.length) = .ret (w', .OK, .unit) ∧
        ReadsArray StateSpace.model w' vr l := by
    intro d' hd' e h4 h12 hbl
    let w' : World F (StateSpace.Data F) := { w with inst := { w.inst with mv := { w.inst.mv with data := d', isDirtyValues := true } } }
    refine ⟨w', ?_, ?_⟩
    · simp only [step, World.run, setVars]
      rw [begin_ok (mask := setMask .float64) ha]
      simp only [Nat.one_ne_zero, if_false, assertNonNull, Option.isNone_some, Bool.false_eq_true, setLoop, Ptr.read, List.getElem?_cons_zero,
        Outcome.ret_bind]
      rw [show (StateSpace.model (F := F)).set .float64 = StateSpace.setFloat64 from rfl, e]
      simp only [Comp.lift, Outcome.ret_bind, call_OK]
      simp [Comp.setDirty, w']
    · have := StateSpace.reads_block (w := w') (vr := vr) hd' hs h4 h12
      rw [show w'.inst.mv.data = d' from rfl, hbl] at this
      exact this
  have take : ∀ n (f : List F → StateSpace.Data F), l.length = n → StateSpace.takeBlock w.inst.ctx w.inst.mv (some l) l.length 0 n f =
      .ret ({ w.inst.mv with data := f l, isDirtyValues := true }, .OK, l.length) := by
    rintro n f rfl
    have hb' : StateSpace.inBounds w.inst.mv.data = true := hb
    rw [StateSpace.takeBlock, assertNValues, if_neg (by omega), StateSpace.guarded, if_pos hb', readN_eq _ _ _ (by omega)]
    simp
  let d := w.inst.mv.data
  cases hv with
  | A =>
    exact key { d with A := StateSpace.fillMatrix d.n d.n l d.A } hb
      (take (d.n * d.n) (fun l => { d with A := StateSpace.fillMatrix d.n d.n l d.A }) hl) (by decide) (by decide)
      (StateSpace.entries_fill _ _ _ _ hl)
  | B =>
    refine key { d with B := StateSpace.fillMatrix d.n d.m l d.B } hb
      (take (d.n * d.m) (fun l => { d with B := StateSpace.fillMatrix d.n d.m l d.B }) hl) (by decide) (by decide) ?_
    have := StateSpace.entries_fill d.n d.m l d.B hl
    have e : d.m = d.n := hB rfl
    show StateSpace.entries d.m d.n (StateSpace.fillMatrix d.n d.m l d.B) = l
    rw [e] at this ⊢
    exact this
  | C =>
    exact key { d with C := StateSpace.fillMatrix d.r d.n l d.C } hb
      (take (d.r * d.n) (fun l => { d with C := StateSpace.fillMatrix d.r d.n l d.C }) hl) (by decide) (by decide)
      (StateSpace.entries_fill _ _ _ _ hl)
  | D =>
    exact key { d with D := StateSpace.fillMatrix d.r d.m l d.D } hb
      (take (d.r * d.m) (fun l => { d with D := StateSpace.fillMatrix d.r d.m l d.D }) hl) (by decide) (by decide)
      (StateSpace.entries_fill _ _ _ _ hl)
  | x0 =>
    exact key { d with x0 := StateSpace.fillVector d.n l d.x0 } hb
      (take d.n (fun l => { d with x0 := StateSpace.fillVector d.n l d.x0 }) hl) (by decide) (by decide)
      (StateSpace.elems_fill _ _ _ hl)
  | u =>
    exact key { d with u := StateSpace.fillVector d.m l d.u } hb
      (take d.m (fun l => { d with u := StateSpace.fillVector d.m l d.u }) hl) (by decide) (by decide)
      (StateSpace.elems_fill _ _ _ hl)
  | x hx =>
    refine key { d with x := StateSpace.fillVector d.n l d.x } hb ?_ (by decide) (by decide) (StateSpace.elems_fill _ _ _ hl)
    refine Eq.trans ?_ (take d.n (fun l => { d with x := StateSpace.fillVector d.n l d.x }) hl)
    simp only [StateSpace.setFloat64, assertNotNull, Option.isNone_some, Bool.false_eq_true, if_false]
    rw [if_neg (by rcases hx with hx | hx <;> simp [hx])]

/-- Non-vacuity: A, x and u are set; the derivative and the output follow. -/
example : (Ex.runME3 StateSpace.model (Ex.init3 ++
    [.set .float64 (some [4, 11, 9]) 3 (some ([1, 2, 3, 4, 5, 6, 7, 8, 9, 1, 0, 2, 10, 20, 30].map .fin)) 15,
      .get .float64 (some [4]) 1 (some (List.replicate 9 .nan)) 9, .get .float64 (some [12, 10]) 2 (some (List.replicate 6 .nan)) 6])).is (fun x =>
      x.2.drop 2 == [(.OK, .unit), (.OK, .values .float64 (some ([1, 2, 3, 4, 5, 6, 7, 8, 9].map .fin))),
        (.OK, .values .float64 (some ([17, 36, 55, 11, 20, 32].map .fin)))]) = true := by
  decide +kernel

/-- The claim about the initial state fails: `x0` is set before initialization and read back, but `x` starts at 0. -/
theorem C37_violated_x0 : (Ex.runME3 StateSpace.model
    ([.set .float64 (some [8]) 1 (some [.fin 1, .fin 2, .fin 3]) 3] ++ Ex.init3 ++
      [.get .float64 (some [8, 11]) 2 (some (List.replicate 6 .nan)) 6])).is (fun x =>
      x.2.drop 3 == [(.OK, .values .float64 (some ([1, 2, 3, 0, 0, 0].map .fin)))]) = true := by
  decide +kernel

/-- The claim about the derivative fails if the number of inputs differs from the number of outputs: with one input
`u = [1]`, `B` the column (1, 0, 0) and `x = 0` the FMU reports der(x) = (1, 2, 3). The number of inputs is changed by
a call that fails but takes effect (`C36_violated_applied`). -/
theorem C37_violated_der : (Ex.runME3 StateSpace.model
    [.enterConfigurationMode, .set .uint64 (some [1]) 1 (some [1, 0]) 2, .get .uint64 (some [1, 2, 3]) 3 (some [0, 0, 0]) 3,
      .get .float64 (some [5, 9, 11, 12]) 4 (some (List.replicate 10 .nan)) 10]).is (fun x =>
      x.2.drop 2 == [(.OK, .values .uint64 (some [1, 3, 3])), (.OK, .values .float64 (some ([1, 0, 0, 1, 0, 0, 0, 1, 2, 3].map .fin)))])
        = true := by
  decide +kernel

/-- The claim about reading back fails for `B` if the numbers of inputs and states differ. -/
theorem C37_violated_B : (Ex.runME3 StateSpace.model
    [.enterConfigurationMode, .set .uint64 (some [1]) 1 (some [1, 0]) 2,
      .set .float64 (some [5]) 1 (some [.fin 7, .fin 8, .fin 9]) 3, .get .float64 (some [5]) 1 (some [.nan, .nan, .nan]) 3]).is (fun x =>
      x.2.drop 2 == [(.OK, .unit), (.OK, .values .float64 (some [.fin 7, .fin 0, .fin 0]))]) = true := by
  decide +kernel

end Verif.FMI3
