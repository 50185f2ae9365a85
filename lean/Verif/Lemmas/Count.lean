import Verif.Lemmas.ModelEff
import Verif.Spec.Elements
import Verif.History3

/-! # How many values an accessor of `model.c` consumes -/

set_option linter.unusedSectionVars false

namespace Verif
variable {F D : Type} {m : Model F D}

/-- An accessor that succeeds advances the index by `k` and keeps the property `S` of the data. -/
def CntR {β : Type} (ix : β → Nat) (S : D → Prop) (k i : Nat) (r : MRes F D β) : Prop :=
  r.All fun x => x.2.1 = .OK → ix x.2.2 = i + k ∧ S x.1.data

/-- All accessors of type `t` advance the index by the number of elements `sz`, which stays the same. -/
structure Model.Counts (m : Model F D) (t : VType) (sz : D → Nat → Nat) : Prop where
  get : ∀ ctx mv vr p n i,
    CntR (fun b : Ptr (t.Val F) × Nat => b.2) (fun d => sz d = sz mv.data) (sz mv.data vr) i (m.get t ctx mv vr p n i)
  set : ∀ ctx mv vr p n i,
    CntR id (fun d => sz d = sz mv.data) (sz mv.data vr) i (m.set t ctx mv vr p n i)
  calculateValues : ∀ ctx mv, (m.calculateValues ctx mv).All fun x => sz x.1.data = sz mv.data

section
variable {α β : Type} {ix : β → Nat} {S : D → Prop} {k i n : Nat} {ctx : Ctx F} {mv : MV F D}

theorem CntR.fail {msg : String} {b : β} : CntR ix S k i (failM ctx mv msg b) := by simp [CntR, failM]
theorem CntR.notNull {p : Option α} {b : β} {r : MRes F D β} (h : CntR ix S k i r) :
    CntR ix S k i (assertNotNull ctx mv p b r) := by
  unfold assertNotNull; split
  · exact .fail
  · exact h
theorem CntR.nValues {nv j : Nat} {b : β} {r : MRes F D β} (h : CntR ix S k i r) :
    CntR ix S k i (assertNValues ctx mv n nv j b r) := by
  unfold assertNValues; split
  · exact .fail
  · exact h
theorem CntR.bind {γ : Type} {r : Outcome γ} {f : γ → MRes F D β} (h : ∀ a, CntR ix S k i (f a)) :
    CntR ix S k i (r >>- f) := Outcome.all_bind.2 fun a _ => h a
theorem CntR.ret {s : Status} {b : β} (h : ix b = i + k) (hS : S mv.data) : CntR ix S k i (.ret (mv, s, b)) :=
  Outcome.all_ret.2 fun _ => ⟨h, hS⟩
theorem CntR.ub : CntR (F := F) ix S k i .ub := by simp [CntR]
theorem CntR.put {p : Ptr α} {nv j : Nat} {v : α} {S : D → Prop} (hS : S mv.data) :
    CntR (fun b : Ptr α × Nat => b.2) S 1 j (putScalar ctx mv p nv j v) := by
  unfold putScalar
  exact .nValues (.bind fun _ => .ret rfl hS)
theorem CntR.take {p : Ptr α} {nv j : Nat} {f : α → D} {S : D → Prop} (hS : ∀ a, S (f a)) :
    CntR id S 1 j (takeScalar ctx mv p nv j f) := by
  unfold takeScalar
  exact .nValues (.bind fun _ => .ret rfl (hS _))
end

/-- Prove `CntR` of an accessor of a scalar variable. -/
macro "mcount" : tactic =>
  `(tactic| repeat' (first
    | with_reducible exact CntR.fail
    | with_reducible exact CntR.put trivial
    | with_reducible exact CntR.take (fun _ => trivial)
    | with_reducible exact CntR.ub
    | with_reducible refine CntR.notNull ?_
    | with_reducible refine CntR.nValues ?_
    | with_reducible exact CntR.ret rfl trivial
    | (with_reducible refine CntR.bind ?_) <;> intro _
    | split))

variable [Arith F]

theorem Model.Counts.scalar {t : VType}
    (h1 : ∀ ctx mv vr p n i, CntR (fun b : Ptr (t.Val F) × Nat => b.2) (fun _ => True) 1 i (m.get t ctx mv vr p n i))
    (h2 : ∀ ctx mv vr p n i, CntR id (fun _ => True) 1 i (m.set t ctx mv vr p n i)) :
    m.Counts t fun _ _ => 1 :=
  ⟨fun ctx mv vr p n i => (h1 ctx mv vr p n i).mono fun _ h e => ⟨(h e).1, rfl⟩,
    fun ctx mv vr p n i => (h2 ctx mv vr p n i).mono fun _ h e => ⟨(h e).1, rfl⟩, fun _ _ _ _ => rfl⟩

theorem ScalarFMU3.counts (hm : ScalarFMU3 m) (t : VType) : m.Counts t fun _ _ => 1 := by
  cases hm
  · apply Model.Counts.scalar <;> intro ctx mv vr p n i <;>
      cases t <;> simp only [BouncingBall.model, BouncingBall.getFloat64, BouncingBall.setFloat64, getStub, setStub] <;> mcount
  · apply Model.Counts.scalar <;> intro ctx mv vr p n i <;>
      cases t <;> simp only [Clocks.model, Clocks.getFloat64, Clocks.getInt32, Clocks.setInt32, getStub, setStub] <;> mcount
  · apply Model.Counts.scalar <;> intro ctx mv vr p n i <;>
      cases t <;> simp only [Dahlquist.model, Dahlquist.getFloat64, Dahlquist.setFloat64, getStub, setStub] <;> mcount
  · apply Model.Counts.scalar <;> intro ctx mv vr p n i
    · cases t <;> simp only [Feedthrough.model, Feedthrough.getFloat32, Feedthrough.getFloat64, Feedthrough.getInt8, Feedthrough.getUInt8, Feedthrough.getInt16, Feedthrough.getUInt16, Feedthrough.getInt32, Feedthrough.getUInt32, Feedthrough.getInt64, Feedthrough.getUInt64, Feedthrough.getBoolean, Feedthrough.getString, Feedthrough.getBinary, getStub] <;> mcount
    · cases t <;> simp only [Feedthrough.model, Feedthrough.setFloat32, Feedthrough.setFloat64, Feedthrough.setInt8, Feedthrough.setUInt8, Feedthrough.setInt16, Feedthrough.setUInt16, Feedthrough.setInt32, Feedthrough.setUInt32, Feedthrough.setInt64, Feedthrough.setUInt64, Feedthrough.setBoolean, Feedthrough.setString, Feedthrough.setBinary, setStub] <;> mcount
  · apply Model.Counts.scalar <;> intro ctx mv vr p n i <;>
      cases t <;> simp only [Resource.model, Resource.getFloat64, Resource.getInt32, getStub, setStub] <;> mcount
  · apply Model.Counts.scalar <;> intro ctx mv vr p n i <;>
      cases t <;> simp only [Roberts.model, Roberts.getFloat64, Roberts.getBoolean, Roberts.setFloat64, Roberts.setBoolean, getStub, setStub] <;> mcount
  · apply Model.Counts.scalar <;> intro ctx mv vr p n i <;>
      cases t <;> simp only [Stair.model, Stair.getFloat64, Stair.getInt32, Stair.setInt32, getStub, setStub] <;> mcount
  · apply Model.Counts.scalar <;> intro ctx mv vr p n i <;>
      cases t <;> simp only [VanDerPol.model, VanDerPol.getFloat64, VanDerPol.setFloat64, getStub, setStub] <;> mcount

theorem StateSpace.length_entries (rows cols : Nat) (M : Nat → Nat → F) :
    (StateSpace.entries rows cols M).length = rows * cols := by
  unfold StateSpace.entries
  induction rows with
  | zero => simp
  | succ k ih => rw [List.range_succ, List.flatMap_append, List.length_append, ih]; simp [Nat.succ_mul]

/-- The numbers of elements in the current configuration. -/
def StateSpace.size (d : StateSpace.Data F) (vr : Nat) : Nat := StateSpace.elements d.m d.n d.r vr

theorem StateSpace.counts : (StateSpace.model (F := F)).Counts .float64 StateSpace.size where
  get := by
    intro ctx mv vr p n i
    simp only [StateSpace.model, StateSpace.getFloat64]
    refine .notNull (Outcome.all_bind.2 fun mv' e => ?_)
    have h : StateSpace.size mv'.data = StateSpace.size mv.data := by
      unfold StateSpace.calculateValues StateSpace.guarded at e
      split at e <;> cases e
      rfl
    simp only
    rw [← h]
    have hb : ∀ l : List F, l.length = StateSpace.size mv'.data vr →
        CntR (fun b : Ptr F × Nat => b.2) (fun d => StateSpace.size d = StateSpace.size mv'.data)
          (StateSpace.size mv'.data vr) i (StateSpace.putBlock ctx mv' p n i l) := by
      intro l hl
      unfold StateSpace.putBlock
      exact .nValues (.bind fun _ => .ret (by rw [hl]) rfl)
    show CntR (fun b : Ptr F × Nat => b.2) (fun d => StateSpace.size d = StateSpace.size mv'.data) _ _ _
    split <;> first
      | exact CntR.put rfl
      | exact CntR.fail
      | (apply hb; simp [StateSpace.length_entries, StateSpace.elems, StateSpace.size, StateSpace.elements, Nat.mul_comm])
  set := by
    intro ctx mv vr p n i
    simp only [StateSpace.model, StateSpace.setFloat64]
    have hb : ∀ k, ∀ f : List F → StateSpace.Data F, k = StateSpace.size mv.data vr →
        (∀ l, StateSpace.size (f l) = StateSpace.size mv.data) →
        CntR id (fun d => StateSpace.size d = StateSpace.size mv.data)
          (StateSpace.size mv.data vr) i (StateSpace.takeBlock ctx mv p n i k f) := by
      intro k f hk hf
      subst hk
      unfold StateSpace.takeBlock StateSpace.guarded
      refine .nValues ?_
      split
      · exact .bind fun _ => .ret rfl (hf _)
      · exact .ub
    refine .notNull ?_
    split <;> first
      | exact CntR.fail
      | exact hb _ _ rfl fun _ => rfl
      | skip
    split
    · exact .fail
    · exact hb _ _ rfl fun _ => rfl
  calculateValues := by
    intro ctx mv
    simp only [StateSpace.model]
    refine Outcome.all_bind.2 fun mv' e => Outcome.all_ret.2 ?_
    unfold StateSpace.calculateValues StateSpace.guarded at e
    split at e <;> cases e
    rfl

theorem StateSpace.counts_other {t : VType} (ht : t ≠ .float64) :
    (StateSpace.model (F := F)).Counts t fun _ _ => 1 := by
  apply Model.Counts.scalar <;> intro ctx mv vr p n i <;> cases t <;>
    first
    | exact absurd rfl ht
    | (simp only [StateSpace.model, StateSpace.getUInt64, StateSpace.setUInt64, getStub, setStub] <;> mcount)

section Loops
variable {t : VType} {sz : D → Nat → Nat}

theorem getLoop_count (hm : OkOrError m) (hc : m.Counts t sz) {nv : Nat} {vr : Ptr Nat} (rs : List Nat) (c : Comp F D)
    (i : Nat) (values : Ptr (t.Val F)) (index : Nat)
    (hvr : ∀ k r, rs[k]? = some r → Ptr.read vr (i + k) = .ret r) {c' s b}
    (h : getLoop m t vr nv rs.length i c .OK values index = .ret (c', s, b)) :
    s = .Error ∨ s = .OK ∧ b.2 = index + (rs.map (sz c.mv.data)).sum := by
  induction rs generalizing c i values index with
  | nil => simp only [List.length_nil, getLoop] at h; cases h; exact .inr ⟨rfl, by simp⟩
  | cons r rs ih =>
    simp only [List.length_cons, getLoop] at h
    have h0 := hvr 0 r rfl
    rw [Nat.add_zero] at h0
    rw [h0, Outcome.ret_bind] at h
    simp only [call, Comp.lift] at h
    obtain ⟨⟨c1, s1, b1⟩, e1, h⟩ := Outcome.bind_eq_ret.1 h
    obtain ⟨⟨mv, s2, b2⟩, e2, h2⟩ := Outcome.bind_eq_ret.1 e1
    cases h2
    rcases hm _ _ _ _ _ (.get e2) with rfl | rfl
    · obtain ⟨hi, hS⟩ := hc.get _ _ _ _ _ _ _ e2 rfl
      simp only [Status.rank] at h
      rcases ih _ _ _ _ (fun k r hk => by have := hvr (k + 1) r (by simpa using hk); rwa [Nat.add_assoc, Nat.add_comm 1 k]) h with h | ⟨h, h'⟩
      · exact .inl h
      · refine .inr ⟨h, ?_⟩
        simp only at hi hS h'
        rw [h', hS, hi, List.map_cons, List.sum_cons, Nat.add_assoc]
    · simp only [Status.rank] at h
      cases h; exact .inl rfl

theorem setLoop_count (hm : OkOrError m) (hc : m.Counts t sz) {nv : Nat} {vr : Ptr Nat} {values : Ptr (t.Val F)}
    (rs : List Nat) (c : Comp F D) (i : Nat) (index : Nat)
    (hvr : ∀ k r, rs[k]? = some r → Ptr.read vr (i + k) = .ret r) {c' s b}
    (h : setLoop m t vr values nv rs.length i c .OK index = .ret (c', s, b)) :
    s = .Error ∨ s = .OK ∧ b = index + (rs.map (sz c.mv.data)).sum := by
  induction rs generalizing c i index with
  | nil => simp only [List.length_nil, setLoop] at h; cases h; exact .inr ⟨rfl, by simp⟩
  | cons r rs ih =>
    simp only [List.length_cons, setLoop] at h
    have h0 := hvr 0 r rfl
    rw [Nat.add_zero] at h0
    rw [h0, Outcome.ret_bind] at h
    simp only [call, Comp.lift] at h
    obtain ⟨⟨c1, s1, b1⟩, e1, h⟩ := Outcome.bind_eq_ret.1 h
    obtain ⟨⟨mv, s2, b2⟩, e2, h2⟩ := Outcome.bind_eq_ret.1 e1
    cases h2
    rcases hm _ _ _ _ _ (.set e2) with rfl | rfl
    · obtain ⟨hi, hS⟩ := hc.set _ _ _ _ _ _ _ e2 rfl
      simp only [Status.rank] at h
      rcases ih _ _ _ (fun k r hk => by have := hvr (k + 1) r (by simpa using hk); rwa [Nat.add_assoc, Nat.add_comm 1 k]) h with h | ⟨h, h'⟩
      · exact .inl h
      · refine .inr ⟨h, ?_⟩
        simp only [id] at hi hS h'
        rw [h', hS, hi, List.map_cons, List.sum_cons, Nat.add_assoc]
    · simp only [Status.rank] at h
      cases h; exact .inl rfl
end Loops

end Verif
