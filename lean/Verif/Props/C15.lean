import Verif.Lemmas.Count
import Verif.Spec.Observe
import Verif.Examples

/-!
# C15: a wrong number of values is always reported

The FMUs of `ScalarFMU3` (all but StateSpace) have only scalar variables: the number of values must
be the number of references. For StateSpace the number of elements of the variables is given by
Spec/Elements.lean in terms of the structural parameters, which are read as UInt64 variables 1 to 3.

Theorems are about calls that return. That Get calls with a large enough array never run into
undefined behaviour is part of C45; `C15_violated_ub` shows that Set calls with too few values can.
-/

set_option linter.unusedSectionVars false

namespace Verif.FMI3
variable {F D : Type} [Arith F] [HasInf F] {m : Model F D}

theorem sum_ones (l : List Nat) : (l.map fun _ => 1).sum = l.length := by
  induction l <;> simp_all [Nat.add_comm]

theorem getVars_count (hm : OkOrError m) {t : VType} {sz : D → Nat → Nat} (hc : m.Counts t sz) {c c' : Comp F D}
    {rs : List Nat} (hne : rs ≠ []) (ht : t ≠ .binary) {p : Ptr (t.Val F)} {nv : Nat} {s b}
    (h : getVars m t c (some rs) rs.length p nv = .ret (c', s, b)) (hn : nv ≠ (rs.map (sz c.mv.data)).sum) :
    s = .Error := by
  have hl : rs.length ≠ 0 := by simpa using hne
  have key : ∀ c0 : Comp F D, sz c0.mv.data = sz c.mv.data → ∀ {c' s b},
      (getLoop m t (some rs) nv rs.length 0 c0 .OK p 0 >>- fun (c, st, (values, index)) =>
        if st = .Discard ∨ st = .Error ∨ st = .Fatal then .ret (c, st, values)
        else if t ≠ .binary ∧ index ≠ nv then fail c "Expected nValues = %zu but was %zu." values
        else .ret (c, st, values)) = .ret (c', s, b) → s = .Error := by
    intro c0 h0 c' s b h
    obtain ⟨⟨c1, s1, p1, j⟩, e1, h⟩ := Outcome.bind_eq_ret.1 h
    rcases getLoop_count hm hc rs c0 0 p 0 (by intro k r hk; simp [Ptr.read, hk]) e1 with rfl | ⟨rfl, hj⟩
    · simp at h; exact h.2.1.symm
    · simp only [h0] at hj
      have : j ≠ nv := by omega
      simp only [reduceCtorEq, or_self, if_false, if_pos (And.intro ht this), fail] at h
      cases h; rfl
  simp only [getVars, begin, beginFunction, if_neg hl] at h
  split at h
  · simp only [assertNonNull, Option.isNone_some, Bool.false_eq_true, if_false] at h
    have key2 : ∀ {c' s b}, (refresh m .OK c p fun c st =>
        getLoop m t (some rs) nv rs.length 0 c st p 0 >>- fun (c, st, (values, index)) =>
        if st = .Discard ∨ st = .Error ∨ st = .Fatal then .ret (c, st, values)
        else if t ≠ .binary ∧ index ≠ nv then fail c "Expected nValues = %zu but was %zu." values
        else .ret (c, st, values)) = .ret (c', s, b) → s = .Error := by
      intro c' s b h
      simp only [refresh] at h
      split at h
      · simp only [call, Comp.lift] at h
        obtain ⟨⟨c1, s1, b1⟩, e1, h⟩ := Outcome.bind_eq_ret.1 h
        obtain ⟨⟨mv, s2, b2⟩, e2, h2⟩ := Outcome.bind_eq_ret.1 e1
        cases h2
        have hS := hc.calculateValues _ _ _ e2
        rcases hm _ _ _ _ _ (.calc e2) with rfl | rfl
        · simp only [Status.rank] at h
          exact key _ hS h
        · simp only [Status.rank] at h
          cases h; rfl
      · exact key c rfl h
    split at h
    · split at h
      · cases h; rfl
      · exact key2 h
    · exact key2 h
  · cases h; rfl

theorem setVars_count (hm : OkOrError m) {t : VType} {sz : D → Nat → Nat} (hc : m.Counts t sz) {c c' : Comp F D}
    {rs : List Nat} (hne : rs ≠ []) {p : Ptr (t.Val F)} {nv : Nat} {s b}
    (h : setVars m t c (some rs) rs.length p nv = .ret (c', s, b)) (hn : nv ≠ (rs.map (sz c.mv.data)).sum) :
    s = .Error := by
  have hl : rs.length ≠ 0 := by simpa using hne
  simp only [setVars, begin, beginFunction, if_neg hl] at h
  split at h
  · simp only [assertNonNull, Option.isNone_some, Bool.false_eq_true, if_false] at h
    obtain ⟨⟨c1, s1, j⟩, e1, h⟩ := Outcome.bind_eq_ret.1 h
    rcases setLoop_count hm hc rs c 0 0 (by intro k r hk; simp [Ptr.read, hk]) e1 with rfl | ⟨rfl, hj⟩
    · simp at h; exact h.2.symm
    · have : j ≠ nv := by omega
      simp only [reduceCtorEq, or_self, if_false, if_pos this, fail] at h
      cases h; rfl
  · cases h; rfl

/-- **C15**, Get functions of the FMUs with scalar variables: a call whose number of values is not
the number of references returns `fmi3Error`. -/
theorem C15_get (hm : ScalarFMU3 m) {fuel : Nat} {t : VType} (ht : t ≠ .binary) {w w' : World F D}
    {rs : List Nat} (hne : rs ≠ []) {p : Ptr (t.Val F)} {nv : Nat} (hn : nv ≠ rs.length) {s : Status} {o : Out F}
    (h : step m fuel w (.get t (some rs) rs.length p nv) = .ret (w', s, o)) : s = .Error := by
  simp only [step, World.run] at h
  obtain ⟨⟨c1, s1, b1⟩, e1, h⟩ := Outcome.bind_eq_ret.1 h
  cases h
  exact getVars_count hm.ref.eff.okOrError (hm.counts t) hne ht e1 (by rw [sum_ones]; exact hn)

/-- **C15**, Set functions of the FMUs with scalar variables. -/
theorem C15_set (hm : ScalarFMU3 m) {fuel : Nat} {t : VType} {w w' : World F D}
    {rs : List Nat} (hne : rs ≠ []) {p : Ptr (t.Val F)} {nv : Nat} (hn : nv ≠ rs.length) {s : Status} {o : Out F}
    (h : step m fuel w (.set t (some rs) rs.length p nv) = .ret (w', s, o)) : s = .Error := by
  simp only [step, World.run] at h
  obtain ⟨⟨c1, s1, b1⟩, e1, h⟩ := Outcome.bind_eq_ret.1 h
  cases h
  exact setVars_count hm.ref.eff.okOrError (hm.counts t) hne e1 (by rw [sum_ones]; exact hn)

theorem StateSpace.reads_dims {w : World F (StateSpace.Data F)} {a b c : Nat}
    (h1 : Reads StateSpace.model w .uint64 1 (a : Int)) (h2 : Reads StateSpace.model w .uint64 2 (b : Int))
    (h3 : Reads StateSpace.model w .uint64 3 (c : Int)) :
    w.inst.mv.data.m = a ∧ w.inst.mv.data.n = b ∧ w.inst.mv.data.r = c := by
  have key : ∀ r : Nat, ∀ v : Int, Reads StateSpace.model w .uint64 r v →
      ∀ f : StateSpace.Data F → Nat, (∀ d mv', StateSpace.size mv' = StateSpace.size d → f mv' = f d) →
      (∀ ctx (mv : MV F (StateSpace.Data F)), StateSpace.getUInt64 ctx mv r (some [0]) 1 0 =
        .ret (mv, .OK, (some [(f mv.data : Int)], 1))) → (f w.inst.mv.data : Int) = v := by
    intro r v h f hf hg
    obtain ⟨w', e⟩ := h 0 0
    simp only [step, World.run] at e
    obtain ⟨⟨c1, s1, b1⟩, e1, e⟩ := Outcome.bind_eq_ret.1 e
    cases e
    simp only [getVars, begin, beginFunction] at e1
    split at e1
    · simp only [Nat.one_ne_zero, if_false, assertNonNull, Option.isNone_some, Bool.false_eq_true,
        Nat.zero_lt_one, gt_iff_lt, if_true, refresh] at e1
      split at e1
      · simp only [call, Comp.lift] at e1
        obtain ⟨⟨c2, s2, b2⟩, e2, e3⟩ := Outcome.bind_eq_ret.1 e1
        obtain ⟨⟨mv, s3, b3⟩, e4, h5⟩ := Outcome.bind_eq_ret.1 e2
        cases h5
        have hS := (StateSpace.counts (F := F)).calculateValues _ _ _ e4
        rcases (RefFMU3.eff (F := F) .stateSpace).okOrError _ _ _ _ _ (.calc e4) with rfl | rfl
        · simp only [Status.rank] at e3
          simp [getLoop, Ptr.read, StateSpace.model, hg, call, Comp.lift, Comp.setDirty, Status.rank] at e3
          rw [← e3.2]
          exact congrArg _ (hf _ _ hS).symm
        · simp [Status.rank] at e3
      · simp [getLoop, Ptr.read, StateSpace.model, hg, call, Comp.lift, Status.rank] at e1
        exact e1.2
    · cases e1
  have hm : ∀ d mv' : StateSpace.Data F, StateSpace.size mv' = StateSpace.size d →
      mv'.m = d.m ∧ mv'.n = d.n ∧ mv'.r = d.r := by
    intro d mv' h
    exact ⟨congrFun h 9, congrFun h 8, congrFun h 10⟩
  refine ⟨?_, ?_, ?_⟩
  · have := key 1 a h1 (·.m) (fun d mv' h => (hm d mv' h).1) (fun _ _ => rfl)
    exact Int.ofNat.inj this
  · have := key 2 b h2 (·.n) (fun d mv' h => (hm d mv' h).2.1) (fun _ _ => rfl)
    exact Int.ofNat.inj this
  · have := key 3 c h3 (·.r) (fun d mv' h => (hm d mv' h).2.2) (fun _ _ => rfl)
    exact Int.ofNat.inj this

/-- **C15**, `fmi3GetFloat64` of StateSpace. The structural parameters read `nu`, `nx`, `ny`. -/
theorem C15_stateSpace_getFloat64 {fuel : Nat} {w w' : World F (StateSpace.Data F)} {nu nx ny : Nat}
    (h1 : Reads StateSpace.model w .uint64 1 (nu : Int)) (h2 : Reads StateSpace.model w .uint64 2 (nx : Int))
    (h3 : Reads StateSpace.model w .uint64 3 (ny : Int))
    {rs : List Nat} (hne : rs ≠ []) {p : Ptr F} {nv : Nat}
    (hn : nv ≠ (rs.map (StateSpace.elements nu nx ny)).sum) {s : Status} {o : Out F}
    (h : step StateSpace.model fuel w (.get .float64 (some rs) rs.length p nv) = .ret (w', s, o)) : s = .Error := by
  obtain ⟨rfl, rfl, rfl⟩ := StateSpace.reads_dims h1 h2 h3
  simp only [step, World.run] at h
  obtain ⟨⟨c1, s1, b1⟩, e1, h⟩ := Outcome.bind_eq_ret.1 h
  cases h
  exact getVars_count (RefFMU3.eff .stateSpace).okOrError StateSpace.counts hne (by decide) e1 hn

/-- **C15**, `fmi3SetFloat64` of StateSpace. -/
theorem C15_stateSpace_setFloat64 {fuel : Nat} {w w' : World F (StateSpace.Data F)} {nu nx ny : Nat}
    (h1 : Reads StateSpace.model w .uint64 1 (nu : Int)) (h2 : Reads StateSpace.model w .uint64 2 (nx : Int))
    (h3 : Reads StateSpace.model w .uint64 3 (ny : Int))
    {rs : List Nat} (hne : rs ≠ []) {p : Ptr F} {nv : Nat}
    (hn : nv ≠ (rs.map (StateSpace.elements nu nx ny)).sum) {s : Status} {o : Out F}
    (h : step StateSpace.model fuel w (.set .float64 (some rs) rs.length p nv) = .ret (w', s, o)) : s = .Error := by
  obtain ⟨rfl, rfl, rfl⟩ := StateSpace.reads_dims h1 h2 h3
  simp only [step, World.run] at h
  obtain ⟨⟨c1, s1, b1⟩, e1, h⟩ := Outcome.bind_eq_ret.1 h
  cases h
  exact setVars_count (RefFMU3.eff .stateSpace).okOrError StateSpace.counts hne e1 hn

/-- **C15**, the other Get functions of StateSpace (their variables are scalars). -/
theorem C15_stateSpace_get {fuel : Nat} {t : VType} (ht : t ≠ .binary) (ht' : t ≠ .float64)
    {w w' : World F (StateSpace.Data F)} {rs : List Nat} (hne : rs ≠ []) {p : Ptr (t.Val F)} {nv : Nat}
    (hn : nv ≠ rs.length) {s : Status} {o : Out F}
    (h : step StateSpace.model fuel w (.get t (some rs) rs.length p nv) = .ret (w', s, o)) : s = .Error := by
  simp only [step, World.run] at h
  obtain ⟨⟨c1, s1, b1⟩, e1, h⟩ := Outcome.bind_eq_ret.1 h
  cases h
  exact getVars_count (RefFMU3.eff .stateSpace).okOrError (StateSpace.counts_other ht') hne ht e1 (by rw [sum_ones]; exact hn)

/-- **C15**, the other Set functions of StateSpace. -/
theorem C15_stateSpace_set {fuel : Nat} {t : VType} (ht' : t ≠ .float64)
    {w w' : World F (StateSpace.Data F)} {rs : List Nat} (hne : rs ≠ []) {p : Ptr (t.Val F)} {nv : Nat}
    (hn : nv ≠ rs.length) {s : Status} {o : Out F}
    (h : step StateSpace.model fuel w (.set t (some rs) rs.length p nv) = .ret (w', s, o)) : s = .Error := by
  simp only [step, World.run] at h
  obtain ⟨⟨c1, s1, b1⟩, e1, h⟩ := Outcome.bind_eq_ret.1 h
  cases h
  exact setVars_count (RefFMU3.eff .stateSpace).okOrError (StateSpace.counts_other ht') hne e1 (by rw [sum_ones]; exact hn)

/-- Non-vacuity: too many and too few values for two scalars of VanDerPol (and the right number),
and for the 3 × 3 matrix A and the 3 inputs of StateSpace. -/
example : (Ex.runME3 VanDerPol.model (Ex.init3 ++
    [.get .float64 (some [1, 3]) 2 (some [.fin 0, .fin 0, .fin 0]) 2,
      .get .float64 (some [1, 3]) 2 (some [.fin 0, .fin 0, .fin 0]) 3])).is (fun x =>
      x.2.drop 2 == [(.OK, .values .float64 (some [.fin 2, .fin 0, .fin 0])),
        (.Error, .values .float64 (some [.fin 2, .fin 0, .fin 0]))]) = true := by
  decide +kernel
example : (Ex.runME3 VanDerPol.model (Ex.init3 ++
    [.set .float64 (some [1, 3]) 2 (some [.fin 5, .fin 6]) 2,
      .set .float64 (some [1, 3]) 2 (some [.fin 5]) 1])).is (fun x =>
      x.2.drop 2 == [(.OK, .unit), (.Error, .unit)]) = true := by
  decide +kernel
example : (Ex.runME3 StateSpace.model (Ex.init3 ++
    [.get .float64 (some [4, 9]) 2 (some (List.replicate 12 (.fin 7))) 12,
      .get .float64 (some [4, 9]) 2 (some (List.replicate 12 (.fin 7))) 11])).is (fun x =>
      x.2.drop 2 == [(.OK, .values .float64 (some [.fin 1, .fin 0, .fin 0, .fin 0, .fin 1, .fin 0, .fin 0, .fin 0, .fin 1, .fin 1, .fin 2, .fin 3])),
        (.Error, .values .float64 (some [.fin 1, .fin 0, .fin 0, .fin 0, .fin 1, .fin 0, .fin 0, .fin 0, .fin 1, .fin 7, .fin 7, .fin 7]))]) = true := by
  decide +kernel

/-- **C15 is violated** for an empty list of references: five values for no variables are not
reported. -/
theorem C15_violated_empty : (Ex.runME3 VanDerPol.model (Ex.init3 ++
    [.get .float64 (some []) 0 (some (List.replicate 5 (.fin 7))) 5])).is (fun x =>
      x.2.drop 2 == [(.OK, .values .float64 (some (List.replicate 5 (.fin 7))))]) = true := by
  decide +kernel

/-- **C15 is violated** by `fmi3SetString` of Feedthrough: with too few values the missing value is
read beyond the end of the array before the number of values is compared. -/
theorem C15_violated_ub : (Ex.runCS3 (Feedthrough.model true) false false (Ex.init3 ++
    [.set .string (some [29, 29]) 2 (some [some [97, 0]]) 1])) = .ub :=
  Outcome.ub_of_isUb (by decide +kernel)

end Verif.FMI3
