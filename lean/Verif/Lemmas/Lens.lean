import Verif.Lemmas.Views
import Verif.Lemmas.FeedViews
import Verif.Lemmas.Sequence
import Verif.Spec.Independent

/-!
# Lenses: the value an importer reads as a function of the data

`Lens m R` says that every variable of `R` can be read and gives `val`, a function of time and model
data which `calculateValues` does not change.
-/

set_option linter.unusedSectionVars false

namespace Verif
variable {F D : Type} [Arith F]

def VType.zero : (t : VType) → t.Val F
  | .float32 => (0 : UInt32)
  | .float64 => Arith.lit 0
  | .boolean => false
  | .string => none
  | .binary => ⟨0, none⟩
  | .int8 | .uint8 | .int16 | .uint16 | .int32 | .uint32 | .int64 | .uint64 => (0 : Int)

structure Lens (m : Model F D) (R : List (VType × Nat)) where
  val : (t : VType) → Nat → F → D → t.Val F
  upd : D → D
  upd_val : ∀ t r τ d, val t r τ (upd d) = val t r τ d
  «calc» : ∀ ctx mv, ∃ mv', m.calculateValues ctx mv = .ret (mv', .OK, ()) ∧ mv'.data = upd mv.data
  get : ∀ t r, (t, r) ∈ R → ∀ ctx mv x, ∃ mv',
    m.get t ctx mv r (some [x]) 1 0 = .ret (mv', .OK, (some [val t r ctx.time mv.data], 1))

/-- A successful set of a variable of `I` stores the value and keeps the other variables of `I`. -/
def Lens.Sets {m : Model F D} {R : List (VType × Nat)} (l : Lens m R) (I : List (VType × Nat)) : Prop :=
  ∀ t r, (t, r) ∈ I → ∀ ctx mv v mv' j, m.set t ctx mv r (some [v]) 1 0 = .ret (mv', .OK, j) →
    (∀ τ, l.val t r τ mv'.data = t.meant v) ∧
    ∀ t' r', (t', r') ∈ I → (t', r') ≠ (t, r) → ∀ τ, l.val t' r' τ mv'.data = l.val t' r' τ mv.data

theorem binary_stored {v : CBinary} {s : List UInt8} {P : Prop} (h : v.data = some s) (hl : ¬ (s.length < v.size ∨ P)) :
    (⟨(s.take v.size).length, some (s.take v.size)⟩ : CBinary) = ⟨v.size, v.data.map (List.take v.size)⟩ := by
  have : ¬ s.length < v.size := fun h => hl (.inl h)
  rw [h, List.length_take, Nat.min_eq_left (by omega)]
  rfl

/-- Prove `Lens.get`: go through the variables. -/
macro "lens_get" : tactic => `(tactic| (
  intro t r h ctx mv x
  simp only [List.mem_cons, List.not_mem_nil, or_false, Prod.mk.injEq] at h
  repeat' (refine Or.elim h ?_ ?_ <;> clear h <;> intro h)
  all_goals (cases h.1; cases h.2; exact ⟨_, rfl⟩)))

/-- Prove `Lens.Sets`: go through the pairs of variables. -/
macro "lens_set" : tactic => `(tactic| (
  intro t r h ctx mv v mv' j e
  simp only [List.mem_cons, List.not_mem_nil, or_false, Prod.mk.injEq] at h
  repeat' (refine Or.elim h ?_ ?_ <;> clear h <;> intro h)
  all_goals (
    cases h.1; cases h.2
    simp only [BouncingBall.model, BouncingBall.setFloat64, Dahlquist.model, Dahlquist.setFloat64, VanDerPol.model, VanDerPol.setFloat64,
      Roberts.model, Roberts.setFloat64, Roberts.setBoolean, Stair.model, Stair.setInt32, Clocks.model, Clocks.setInt32,
      Feedthrough.model, Feedthrough.setFloat32, Feedthrough.setFloat64, Feedthrough.setInt8,
      Feedthrough.setUInt8, Feedthrough.setInt16, Feedthrough.setUInt16, Feedthrough.setInt32, Feedthrough.setUInt32,
      Feedthrough.setInt64, Feedthrough.setUInt64, Feedthrough.setBoolean, Feedthrough.setString, Feedthrough.setBinary,
      setStub, assertNotNull, Option.isNone_some, Bool.false_eq_true, if_false, takeScalar, assertNValues, failM, Ptr.read,
      Outcome.ret_bind, Nat.zero_add, Nat.lt_irrefl, gt_iff_lt, List.getElem?_cons_zero, Bool.and_self, if_true] at e
    repeat' split at e
    all_goals (
      cases e <;> refine ⟨fun _ => ?_, ?_⟩ <;> first | rfl | (
        intro t' r' h' hne
        simp only [List.mem_cons, List.not_mem_nil, or_false, Prod.mk.injEq] at h'
        repeat' (refine Or.elim h' ?_ ?_ <;> clear h' <;> intro h')
        all_goals (cases h'.1; cases h'.2; first | exact absurd rfl hne | (intro τ; rfl))) | exact binary_stored (by assumption) (by assumption)))))

namespace Lens

/-- All variables of BouncingBall. -/
def bouncingBall : Lens (BouncingBall.model : Model F (BouncingBall.Data F))
    [(.float64, 0), (.float64, 1), (.float64, 2), (.float64, 3), (.float64, 4), (.float64, 5), (.float64, 6), (.float64, 7)] where
  val := fun t r τ d => match t, r with
    | .float64, 0 => τ
    | .float64, 1 => d.h
    | .float64, 2 => d.v
    | .float64, 3 => d.v
    | .float64, 4 => d.g
    | .float64, 5 => d.g
    | .float64, 6 => d.e
    | .float64, 7 => BouncingBall.vMin
    | t, _ => t.zero
  upd := id
  upd_val := fun _ _ _ _ => rfl
  «calc» := fun _ _ => ⟨_, rfl, rfl⟩
  get := by lens_get

/-- All variables of Dahlquist. -/
def dahlquist : Lens (Dahlquist.model : Model F (Dahlquist.Data F))
    [(.float64, 0), (.float64, 1), (.float64, 2), (.float64, 3)] where
  val := fun t r τ d => match t, r with
    | .float64, 0 => τ
    | .float64, 1 => d.x
    | .float64, 2 => Arith.neg d.k *. d.x
    | .float64, 3 => d.k
    | t, _ => t.zero
  upd := fun d => { d with der_x := Arith.neg d.k *. d.x }
  upd_val := fun _ _ _ _ => rfl
  «calc» := fun _ _ => ⟨_, rfl, rfl⟩
  get := by lens_get

/-- All variables of VanDerPol. -/
def vanDerPol : Lens (VanDerPol.model : Model F (VanDerPol.Data F))
    [(.float64, 0), (.float64, 1), (.float64, 2), (.float64, 3), (.float64, 4), (.float64, 5)] where
  val := fun t r τ d => match t, r with
    | .float64, 0 => τ
    | .float64, 1 => d.x0
    | .float64, 2 => d.x1
    | .float64, 3 => d.x1
    | .float64, 4 => d.mu *. ((Arith.lit 1 -. d.x0 *. d.x0) *. d.x1) -. d.x0
    | .float64, 5 => d.mu
    | t, _ => t.zero
  upd := fun d => { d with
    der_x0 := d.x1
    der_x1 := d.mu *. ((Arith.lit 1 -. d.x0 *. d.x0) *. d.x1) -. d.x0 }
  upd_val := fun _ _ _ _ => rfl
  «calc» := fun _ _ => ⟨_, rfl, rfl⟩
  get := by lens_get

/-- All variables of Stair. -/
def stair : Lens (Stair.model : Model F Stair.Data)
    [(.float64, 0), (.int32, 1)] where
  val := fun t r τ d => match t, r with
    | .float64, 0 => τ
    | .int32, 1 => d.counter
    | t, _ => t.zero
  upd := id
  upd_val := fun _ _ _ _ => rfl
  «calc» := fun _ _ => ⟨_, rfl, rfl⟩
  get := by lens_get

/-- All scalar variables of Clocks except the clocks. -/
def clocks : Lens (Clocks.model : Model F (Clocks.Data F))
    [(.float64, 0), (.int32, 2001), (.int32, 2002), (.int32, 2003), (.int32, 2004), (.int32, 2005), (.int32, 2006), (.int32, 2007)] where
  val := fun t r τ d => match t, r with
    | .float64, 0 => τ
    | .int32, 2001 => d.inClock1Ticks
    | .int32, 2002 => d.inClock2Ticks
    | .int32, 2003 => d.inClock3Ticks
    | .int32, 2004 => d.totalInClockTicks
    | .int32, 2005 => d.result2
    | .int32, 2006 => d.input2
    | .int32, 2007 => d.output3
    | t, _ => t.zero
  upd := id
  upd_val := fun _ _ _ _ => rfl
  «calc» := fun _ _ => ⟨_, rfl, rfl⟩
  get := by lens_get

/-- All variables of Feedthrough for FMI 2.0. -/
def feedthrough2 : Lens (Feedthrough.model false : Model F (Feedthrough.Data F))
    [(.float64, 0), (.float64, 5), (.float64, 6), (.float64, 7), (.float64, 8), (.float64, 9), (.float64, 10), (.int32, 19), (.int32, 20),
      (.boolean, 27), (.boolean, 28), (.string, 29), (.string, 30), (.int32, 33), (.int32, 34)] where
  val := fun t r τ d => match t, r with
    | .float64, 0 => τ
    | .float32, 1 => d.f32ContIn
    | .float32, 2 => d.f32ContIn
    | .float32, 3 => d.f32DiscIn
    | .float32, 4 => d.f32DiscIn
    | .float64, 5 => d.fixedParam
    | .float64, 6 => d.tunableParam
    | .float64, 7 => d.f64ContIn
    | .float64, 8 => d.f64ContIn
    | .float64, 9 => d.f64DiscIn
    | .float64, 10 => d.f64DiscIn
    | .int8, 11 => d.int8In
    | .int8, 12 => d.int8In
    | .uint8, 13 => d.uint8In
    | .uint8, 14 => d.uint8In
    | .int16, 15 => d.int16In
    | .int16, 16 => d.int16In
    | .uint16, 17 => d.uint16In
    | .uint16, 18 => d.uint16In
    | .int32, 19 => d.int32In
    | .int32, 20 => d.int32In
    | .uint32, 21 => d.uint32In
    | .uint32, 22 => d.uint32In
    | .int64, 23 => d.int64In
    | .int64, 24 => d.int64In
    | .uint64, 25 => d.uint64In
    | .uint64, 26 => d.uint64In
    | .boolean, 27 => d.boolIn
    | .boolean, 28 => d.boolIn
    | .string, 29 => some d.strIn
    | .string, 30 => some d.strIn
    | .binary, 31 => ⟨d.binIn.length, some d.binIn⟩
    | .binary, 32 => ⟨d.binIn.length, some d.binIn⟩
    | .int32, 33 => d.enumIn
    | .int32, 34 => d.enumIn
    | .int64, 33 => d.enumIn
    | .int64, 34 => d.enumIn
    | t, _ => t.zero
  upd := Feedthrough.upd
  upd_val := fun _ _ _ _ => rfl
  «calc» := fun _ _ => ⟨_, rfl, rfl⟩
  get := by lens_get

/-- All variables of Feedthrough for FMI 3.0. -/
def feedthrough3 : Lens (Feedthrough.model true : Model F (Feedthrough.Data F))
    [(.float64, 0), (.float32, 1), (.float32, 2), (.float32, 3), (.float32, 4), (.float64, 5), (.float64, 6), (.float64, 7), (.float64, 8),
      (.float64, 9), (.float64, 10), (.int8, 11), (.int8, 12), (.uint8, 13), (.uint8, 14), (.int16, 15), (.int16, 16), (.uint16, 17), (.uint16, 18), (.int32, 19), (.int32, 20),
      (.uint32, 21), (.uint32, 22), (.int64, 23), (.int64, 24), (.uint64, 25), (.uint64, 26), (.boolean, 27), (.boolean, 28), (.string, 29), (.string, 30), (.binary, 31), (.binary, 32),
      (.int64, 33), (.int64, 34)] where
  val := fun t r τ d => match t, r with
    | .float64, 0 => τ
    | .float32, 1 => d.f32ContIn
    | .float32, 2 => d.f32ContIn
    | .float32, 3 => d.f32DiscIn
    | .float32, 4 => d.f32DiscIn
    | .float64, 5 => d.fixedParam
    | .float64, 6 => d.tunableParam
    | .float64, 7 => d.f64ContIn
    | .float64, 8 => d.f64ContIn
    | .float64, 9 => d.f64DiscIn
    | .float64, 10 => d.f64DiscIn
    | .int8, 11 => d.int8In
    | .int8, 12 => d.int8In
    | .uint8, 13 => d.uint8In
    | .uint8, 14 => d.uint8In
    | .int16, 15 => d.int16In
    | .int16, 16 => d.int16In
    | .uint16, 17 => d.uint16In
    | .uint16, 18 => d.uint16In
    | .int32, 19 => d.int32In
    | .int32, 20 => d.int32In
    | .uint32, 21 => d.uint32In
    | .uint32, 22 => d.uint32In
    | .int64, 23 => d.int64In
    | .int64, 24 => d.int64In
    | .uint64, 25 => d.uint64In
    | .uint64, 26 => d.uint64In
    | .boolean, 27 => d.boolIn
    | .boolean, 28 => d.boolIn
    | .string, 29 => some d.strIn
    | .string, 30 => some d.strIn
    | .binary, 31 => ⟨d.binIn.length, some d.binIn⟩
    | .binary, 32 => ⟨d.binIn.length, some d.binIn⟩
    | .int32, 33 => d.enumIn
    | .int32, 34 => d.enumIn
    | .int64, 33 => d.enumIn
    | .int64, 34 => d.enumIn
    | t, _ => t.zero
  upd := Feedthrough.upd
  upd_val := fun _ _ _ _ => rfl
  «calc» := fun _ _ => ⟨_, rfl, rfl⟩
  get := by lens_get

/-- `y3` of Roberts: in ODE mode calculated from `y1` and `y2`. -/
def robertsY3 (d : Roberts.Data F) : F := if d.dae then d.y3 else Arith.lit 1 -. d.y1 -. d.y2

theorem robertsY3_calc (mv : MV F (Roberts.Data F)) : (Roberts.calcValues mv).data.y3 = robertsY3 mv.data := by
  unfold Roberts.calcValues robertsY3
  cases h : mv.data.dae <;> simp [h]

theorem roberts_calc (mv : MV F (Roberts.Data F)) :
    (Roberts.calcValues mv).data.dae = mv.data.dae ∧ (Roberts.calcValues mv).data.y1 = mv.data.y1 ∧
    (Roberts.calcValues mv).data.y2 = mv.data.y2 ∧ (Roberts.calcValues mv).data.g1 = mv.data.g1 ∧
    (Roberts.calcValues mv).data.g2 = mv.data.g2 ∧
    (Roberts.calcValues mv).data.der_y1 = Arith.neg Roberts.k1 *. mv.data.y1 +. Roberts.k2 *. mv.data.y2 *. robertsY3 mv.data ∧
    (Roberts.calcValues mv).data.der_y2 =
      Roberts.k1 *. mv.data.y1 -. Roberts.k2 *. mv.data.y2 *. robertsY3 mv.data -. Roberts.k3 *. mv.data.y2 *. mv.data.y2 ∧
    (Roberts.calcValues mv).data.r = mv.data.y1 +. mv.data.y2 +. robertsY3 mv.data -. Arith.lit 1 := by
  unfold Roberts.calcValues robertsY3
  cases h : mv.data.dae <;> simp [h]

/-- All variables of Roberts. -/
def roberts : Lens (Roberts.model : Model F (Roberts.Data F))
    [(.float64, 0), (.boolean, 1), (.float64, 2), (.float64, 3), (.float64, 4), (.float64, 5), (.float64, 6), (.float64, 7),
      (.float64, 8), (.float64, 9), (.float64, 10)] where
  val := fun t r τ d => match t, r with
    | .float64, 0 => τ
    | .boolean, 1 => d.dae
    | .float64, 2 => d.y1
    | .float64, 3 => Arith.neg Roberts.k1 *. d.y1 +. Roberts.k2 *. d.y2 *. robertsY3 d
    | .float64, 4 => d.y2
    | .float64, 5 => Roberts.k1 *. d.y1 -. Roberts.k2 *. d.y2 *. robertsY3 d -. Roberts.k3 *. d.y2 *. d.y2
    | .float64, 6 => robertsY3 d
    | .float64, 7 => Arith.lit (1 / 100)
    | .float64, 8 => d.y1 +. d.y2 +. robertsY3 d -. Arith.lit 1
    | .float64, 9 => d.g1
    | .float64, 10 => d.g2
    | t, _ => t.zero
  upd := fun d => { d with
    y3 := robertsY3 d
    der_y1 := Arith.neg Roberts.k1 *. d.y1 +. Roberts.k2 *. d.y2 *. robertsY3 d
    der_y2 := Roberts.k1 *. d.y1 -. Roberts.k2 *. d.y2 *. robertsY3 d -. Roberts.k3 *. d.y2 *. d.y2
    r := d.y1 +. d.y2 +. robertsY3 d -. Arith.lit 1 }
  upd_val := by
    intro t r τ d
    unfold robertsY3
    split <;> cases h : d.dae <;> simp
  «calc» := fun _ mv => ⟨_, rfl, by unfold Roberts.calcValues robertsY3; cases h : mv.data.dae <;> simp [h]⟩
  get := by
    intro t r h ctx mv x
    obtain ⟨h1, h2, h3, h4, h5, h6, h7, h8⟩ := roberts_calc mv
    have h9 := robertsY3_calc mv
    simp only [List.mem_cons, List.not_mem_nil, or_false, Prod.mk.injEq] at h
    rcases h with h | h | h | h | h | h | h | h | h | h | h <;> obtain ⟨rfl, rfl⟩ := h <;>
      refine ⟨Roberts.calcValues mv, ?_⟩ <;>
      simp only [Roberts.model, Roberts.getFloat64, Roberts.getBoolean, assertNotNull, putScalar, assertNValues, h1, h2, h3, h4, h5,
        h6, h7, h8, h9] <;> rfl

theorem bouncingBall_sets : (bouncingBall (F := F)).Sets
    [(.float64, 0), (.float64, 1), (.float64, 3), (.float64, 5), (.float64, 6), (.float64, 7)] := by lens_set
theorem clocks_sets : (clocks (F := F)).Sets
    [(.float64, 0), (.int32, 2001), (.int32, 2002), (.int32, 2003), (.int32, 2004), (.int32, 2005),
        (.int32, 2006), (.int32, 2007)] := by lens_set
theorem dahlquist_sets : (dahlquist (F := F)).Sets [(.float64, 0), (.float64, 1), (.float64, 3)] := by lens_set
theorem feedthrough2_sets : (feedthrough2 (F := F)).Sets
      [(.float64, 0), (.float64, 5), (.float64, 6), (.float64, 7), (.float64, 9), (.int32, 19),
        (.boolean, 27), (.string, 29), (.int32, 33)] := by lens_set
theorem roberts_sets : (roberts (F := F)).Sets
      [(.float64, 0), (.boolean, 1), (.float64, 2), (.float64, 4), (.float64, 7)] := by lens_set
theorem stair_sets : (stair (F := F)).Sets [(.float64, 0), (.int32, 1)] := by lens_set
theorem vanDerPol_sets : (vanDerPol (F := F)).Sets
      [(.float64, 0), (.float64, 1), (.float64, 3), (.float64, 5)] := by lens_set

end Lens
end Verif
