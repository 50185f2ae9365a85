import Verif.Spec.StateSpace
import Verif.Props.C36
import Verif.Props.C48

/-! # Lemmas for C37: the arrays of the StateSpace FMU -/

set_option linter.unusedSectionVars false

namespace Verif
variable {F : Type} [Arith F] [HasInf F]

namespace StateSpace

/-- What `calculateValues` does to the data. -/
def upd (d : Data F) : Data F :=
  { d with
    der_x := fun i => if i < d.n then
      accum (accum (Arith.lit 0) (fun j => d.A i j *. d.x j) d.n) (fun j => d.B i j *. d.u j) d.r else d.der_x i
    y := fun i => if i < d.r then
      accum (accum (Arith.lit 0) (fun j => d.C i j *. d.x j) d.n) (fun j => d.D i j *. d.u j) d.m else d.y i }

theorem calc_eq (mv : MV F (Data F)) : calcValues mv = { mv with data := upd mv.data, isDirtyValues := false } := rfl

theorem upd_upd (d : Data F) : upd (upd d) = upd d := by
  have h1 : (upd (upd d)).der_x = (upd d).der_x := by
    funext i
    show (if i < d.n then _ else (upd d).der_x i) = _
    by_cases h : i < d.n
    · rw [if_pos h]; show _ = (if i < d.n then _ else _); rw [if_pos h]; rfl
    · rw [if_neg h]
  have h2 : (upd (upd d)).y = (upd d).y := by
    funext i
    show (if i < d.r then _ else (upd d).y i) = _
    by_cases h : i < d.r
    · rw [if_pos h]; show _ = (if i < d.r then _ else _); rw [if_pos h]; rfl
    · rw [if_neg h]
  have : upd (upd d) = { upd d with der_x := (upd (upd d)).der_x, y := (upd (upd d)).y } := rfl
  rw [this, h1, h2]

/-- The elements of the array variables. -/
def block (d : Data F) : Nat → List F
  | 4 => entries d.n d.n d.A
  | 5 => entries d.m d.n d.B
  | 6 => entries d.r d.n d.C
  | 7 => entries d.r d.m d.D
  | 8 => elems d.n d.x0
  | 9 => elems d.m d.u
  | 10 => elems d.r d.y
  | 11 => elems d.n d.x
  | _ => elems d.n d.der_x

theorem get_block {ctx : Ctx F} {mv : MV F (Data F)} (hb : inBounds mv.data = true) {vr : Nat} (h1 : 4 ≤ vr) (h2 : vr ≤ 12) {buf : List F}
    (hl : buf.length = (block (upd mv.data) vr).length) :
    getFloat64 ctx mv vr (some buf) buf.length 0 = .ret (calcValues mv, .OK, (some (block (upd mv.data) vr), (block (upd mv.data) vr).length)) := by
  have hw : ∀ v : List F, v.length = buf.length → writeN (some buf) 0 v = .ret (some v) := by
    intro v hv
    rw [writeN_eq _ _ _ (by omega), List.take_zero, List.nil_append, List.drop_of_length_le (by omega), List.append_nil]
  have key : ∀ v : List F, v.length = buf.length → putBlock ctx (calcValues mv) (some buf) buf.length 0 v = .ret (calcValues mv, .OK, (some v, v.length)) := by
    intro v hv
    rw [putBlock, assertNValues, if_neg (by omega), hw v hv, Outcome.ret_bind, Nat.zero_add]
  have hk := key _ hl.symm
  simp only [getFloat64, assertNotNull, Option.isNone_some, Bool.false_eq_true, if_false, calculateValues, guarded, hb, if_true, Outcome.ret_bind]
  have : vr = 4 ∨ vr = 5 ∨ vr = 6 ∨ vr = 7 ∨ vr = 8 ∨ vr = 9 ∨ vr = 10 ∨ vr = 11 ∨ vr = 12 := by omega
  rcases this with rfl | rfl | rfl | rfl | rfl | rfl | rfl | rfl | rfl <;> exact hk

theorem reads_block {w : FMI3.World F (Data F)} (hb : inBounds w.inst.mv.data = true) (hs : w.inst.ctx.state ∈ FMI3.Spec.allowedIn (.get .float64))
    {vr : Nat} (h1 : 4 ≤ vr) (h2 : vr ≤ 12) : FMI3.ReadsArray model w vr (block (upd w.inst.mv.data) vr) := by
  intro fuel buf hl
  have ha : FMI3.allowed w.inst.ctx FMI3.MASK_Get = true := (FMI3.allowed_fn w.inst.ctx (.get .float64)).2 hs
  have key : ∀ c : Comp F (Data F), inBounds c.mv.data = true → upd c.mv.data = upd w.inst.mv.data →
      ∃ c', getLoop model .float64 (some [vr]) (block (upd w.inst.mv.data) vr).length 1 0 c .OK (some buf) 0 =
        .ret (c', .OK, (some (block (upd w.inst.mv.data) vr), (block (upd w.inst.mv.data) vr).length)) := by
    intro c hc he
    have := get_block (ctx := c.ctx) hc h1 h2 (buf := buf) (by rw [he]; exact hl)
    rw [he, hl] at this
    exact ⟨{ c with mv := calcValues c.mv }, by
      simp only [getLoop, Ptr.read, List.getElem?_cons_zero, Outcome.ret_bind]
      show call .OK (c.lift (getFloat64 c.ctx c.mv vr (some buf) (block (upd w.inst.mv.data) vr).length 0)) id _ = _
      rw [this]; rfl⟩
  have fin : ∀ c : Comp F (Data F), inBounds c.mv.data = true → upd c.mv.data = upd w.inst.mv.data →
      ∃ c', (getLoop model .float64 (some [vr]) (block (upd w.inst.mv.data) vr).length 1 0 c .OK (some buf) 0 >>- fun (c, st, (values, index)) =>
        if st = .Discard ∨ st = .Error ∨ st = .Fatal then .ret (c, st, values)
        else if VType.float64 ≠ .binary ∧ index ≠ (block (upd w.inst.mv.data) vr).length then FMI3.fail c "Expected nValues = %zu but was %zu." values
        else .ret (c, st, values)) = .ret (c', .OK, some (block (upd w.inst.mv.data) vr)) := by
    intro c hc he
    obtain ⟨c', e⟩ := key c hc he
    exact ⟨c', by rw [e]; simp⟩
  have main : ∃ c', FMI3.getVars model .float64 w.inst (some [vr]) 1 (some buf) (block (upd w.inst.mv.data) vr).length =
      .ret (c', .OK, some (block (upd w.inst.mv.data) vr)) := by
    simp only [FMI3.getVars]
    rw [FMI3.begin_ok (mask := FMI3.MASK_Get) ha]
    simp only [Nat.one_ne_zero, if_false, assertNonNull, Option.isNone_some, Bool.false_eq_true, ite_self, refresh]
    split
    · obtain ⟨c', e⟩ := fin (({ w.inst with mv := calcValues w.inst.mv } : Comp F (Data F)).setDirty false) hb (upd_upd _)
      refine ⟨c', ?_⟩
      have : (w.inst.lift ((model (F := F)).calculateValues w.inst.ctx w.inst.mv)) =
          .ret ({ w.inst with mv := calcValues w.inst.mv }, .OK, ()) := by
        simp only [Comp.lift, model, calculateValues, guarded, hb, if_true, Outcome.ret_bind]
      rw [this]
      exact e
    · exact fin w.inst hb rfl
  obtain ⟨c', e⟩ := main
  exact ⟨_, by simp only [FMI3.step, FMI3.World.run]; rw [e]; rfl⟩

theorem _root_.Verif.FMI3.ReadsArray.unique {D : Type} {m : Model F D} {w : FMI3.World F D} {vr : Nat} {a b : List F}
    (h1 : FMI3.ReadsArray m w vr a) (h2 : FMI3.ReadsArray m w vr b) (hl : a.length = b.length) : a = b := by
  obtain ⟨w1, e1⟩ := h1 0 (a.map fun _ => Arith.lit 0) (by simp)
  obtain ⟨w2, e2⟩ := h2 0 (a.map fun _ => Arith.lit 0) (by simp [hl])
  rw [← hl] at e2
  have := e1.symm.trans e2
  simp only [Outcome.ret.injEq, Prod.mk.injEq, FMI3.Out.values.injEq] at this
  obtain ⟨-, -, -, h⟩ := this
  exact Option.some.inj (eq_of_heq h)

theorem entries_succ (r c : Nat) (M : Nat → Nat → F) : entries (r + 1) c M = entries r c M ++ (List.range c).map (M r) := by
  simp [entries, List.range_succ, List.flatMap_append]

theorem entries_get {r c : Nat} {M : Nat → Nat → F} {i j : Nat} (hi : i < r) (hj : j < c) (z : F) :
    (entries r c M).getD (i * c + j) z = M i j := by
  induction r with
  | zero => omega
  | succ r ih =>
    rw [entries_succ]
    by_cases h : i < r
    · have : i * c + j < r * c := by
        have := Nat.mul_le_mul_right c (show i + 1 ≤ r from h)
        rw [Nat.add_mul] at this; omega
      rw [← ih h]
      simp [List.getD_eq_getElem?_getD, List.getElem?_append_left (show i * c + j < (entries r c M).length by rw [length_entries]; exact this)]
    · obtain rfl : i = r := by omega
      rw [List.getD_eq_getElem?_getD, List.getElem?_append_right (by rw [length_entries]; omega), length_entries]
      simp [hj]

theorem elems_get {n : Nat} {v : Nat → F} {j : Nat} (hj : j < n) (z : F) : (elems n v).getD j z = v j := by
  simp [elems, hj]

theorem addUp_congr {a b : F} {f g : Nat → F} {n : Nat} (h : a = b) (hf : ∀ j < n, f j = g j) : addUp a f n = accum b g n := by
  induction n with
  | zero => exact h
  | succ n ih => rw [addUp, accum, ih fun j hj => hf j (by omega), hf n (by omega)]

theorem entries_fill (r c : Nat) (l : List F) (M : Nat → Nat → F) (h : l.length = r * c) : entries r c (fillMatrix r c l M) = l := by
  refine List.ext_getElem (by rw [length_entries, h]) fun k h1 h2 => ?_
  rw [length_entries] at h1
  have hc : 0 < c := by
    rcases Nat.eq_zero_or_pos c with rfl | h
    · simp at h1
    · exact h
  have hi : k / c < r := by rw [Nat.div_lt_iff_lt_mul hc]; exact h1
  have hj : k % c < c := Nat.mod_lt _ hc
  have hk : k / c * c + k % c = k := by rw [Nat.mul_comm]; exact Nat.div_add_mod k c
  have := entries_get (M := fillMatrix r c l M) hi hj l[k]
  rw [hk] at this
  rw [List.getD_eq_getElem?_getD, List.getElem?_eq_getElem (by rw [length_entries]; exact h1), Option.getD_some] at this
  rw [this, fillMatrix, if_pos ⟨hi, hj⟩, hk, List.getD_eq_getElem?_getD, List.getElem?_eq_getElem h2, Option.getD_some]

theorem elems_fill (n : Nat) (l : List F) (v : Nat → F) (h : l.length = n) : elems n (fillVector n l v) = l := by
  refine List.ext_getElem (by simp [elems, h]) fun k h1 h2 => ?_
  simp [elems, fillVector, show k < n by omega, h2]

end StateSpace
end Verif
