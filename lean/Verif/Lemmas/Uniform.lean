import Verif.Lemmas.ModelEff

/-!
# Accessors of scalar variables work alike at every position of a vectored call

`Model.UniGet m t vr`: the getter of `model.c` for `vr` does at position `i` of a list what it does
in a call for `vr` alone. `Model.UniSet` is the same for setters.
-/

set_option linter.unusedSectionVars false

namespace Verif
variable {F D : Type} {m : Model F D}

/-- A getter at position `i` of the array `l`, compared with the getter on the array `[x]`. -/
inductive UG {α : Type} (x : α) (l : List α) (i : Nat) :
    MRes F D (Ptr α × Nat) → MRes F D (Ptr α × Nat) → Prop
  | ok (mv : MV F D) (v : α) :
      UG x l i (.ret (mv, .OK, (some (l.set i v), i + 1))) (.ret (mv, .OK, (some [v], 1)))
  | err (mv : MV F D) : UG x l i (.ret (mv, .Error, (some l, i))) (.ret (mv, .Error, (some [x], 0)))
  | ub : UG x l i .ub .ub

/-- A setter at position `i` of an instance `mv₀`, compared with the setter for one variable,
starting with the dirty flag `b'`. A refusal only writes to the log. -/
inductive US (mv₀ : MV F D) (b' : Bool) (i : Nat) : MRes F D Nat → MRes F D Nat → Prop
  | ok (mv : MV F D) (b'' : Bool) :
      US mv₀ b' i (.ret (mv, .OK, i + 1)) (.ret ({ mv with isDirtyValues := b'' }, .OK, 1))
  | err (tr : List (Ev F)) :
      US mv₀ b' i (.ret ({ mv₀ with trace := tr }, .Error, i))
        (.ret ({ mv₀ with trace := tr, isDirtyValues := b' }, .Error, 0))
  | ub : US mv₀ b' i .ub .ub

/-- The getter for `vr` treats all positions alike. -/
structure Model.UniGet (m : Model F D) (t : VType) (vr : Nat) : Prop where
  uni : ∀ ctx mv l n i x, i < n → i < l.length →
    UG x l i (m.get t ctx mv vr (some l) n i) (m.get t ctx mv vr (some [x]) 1 0)
  clean : ∀ ctx mv p n i mv' s b, m.get t ctx mv vr p n i = .ret (mv', s, b) →
    mv.isDirtyValues = false → mv'.isDirtyValues = false

/-- The setter for `vr` treats all positions alike. -/
structure Model.UniSet (m : Model F D) (t : VType) (vr : Nat) : Prop where
  uni : ∀ ctx mv b l n i v, i < n → l[i]? = some v →
    US mv b i (m.set t ctx mv vr (some l) n i)
      (m.set t ctx { mv with isDirtyValues := b } vr (some [v]) 1 0)

/-- Moreover, a successful setter marks the values as dirty. -/
structure Model.MarkSet (m : Model F D) (t : VType) (vr : Nat) : Prop extends m.UniSet t vr where
  marks : ∀ ctx mv p n i mv' j, m.set t ctx mv vr p n i = .ret (mv', .OK, j) → mv'.isDirtyValues = true

section
variable {α : Type} {x : α} {l : List α} {n i : Nat} {ctx : Ctx F} {mv : MV F D}

theorem UG.put (hn : i < n) (hl : i < l.length) {v : α} :
    UG x l i (putScalar ctx mv (some l) n i v) (putScalar ctx mv (some [x]) 1 0 v) := by
  have e : putScalar ctx mv (some l) n i v = .ret (mv, .OK, (some (l.set i v), i + 1)) := by
    simp only [putScalar, assertNValues, Ptr.write, if_pos hl, Outcome.ret_bind]
    rw [if_neg (by omega)]
  rw [e]; exact .ok mv v
theorem UG.write (hl : i < l.length) {v : α} :
    UG x l i (Ptr.write (some l) i v >>- fun p => .ret (mv, .OK, (p, i + 1)))
      (Ptr.write (some [x]) 0 v >>- fun p => .ret (mv, .OK, (p, 0 + 1))) := by
  simp only [Ptr.write, if_pos hl, Outcome.ret_bind]; exact .ok mv v
theorem UG.fail {msg : String} : UG x l i (failM ctx mv msg (some l, i)) (failM ctx mv msg (some [x], 0)) :=
  .err _
theorem UG.notNull {k k' : MRes F D (Ptr α × Nat)} {b b' : Ptr α × Nat} (h : UG x l i k k') :
    UG x l i (assertNotNull ctx mv (some l) b k) (assertNotNull ctx mv (some [x]) b' k') := h
theorem UG.nValues {k k' : MRes F D (Ptr α × Nat)} {b b' : Ptr α × Nat} (hn : i < n) (h : UG x l i k k') :
    UG x l i (assertNValues ctx mv 1 n i b k) (assertNValues ctx mv 1 1 0 b' k') := by
  unfold assertNValues
  rw [if_neg (by omega), if_neg (by omega)]; exact h
theorem UG.bind {β : Type} {r : Outcome β} {k k' : β → MRes F D (Ptr α × Nat)} (hr : r ≠ .hang)
    (h : ∀ a, UG x l i (k a) (k' a)) : UG x l i (r >>- k) (r >>- k') := by
  cases r with
  | ret a => exact h a
  | ub => exact .ub
  | hang => exact absurd rfl hr
theorem UG.getStub {t : VType} {l : List (t.Val F)} {x : t.Val F} {vr : Nat} :
    UG x l i (Verif.getStub t ctx mv vr (some l) n i) (Verif.getStub t ctx mv vr (some [x]) 1 0) := .err _
end

section
variable {α : Type} {l : List α} {v : α} {n i : Nat} {ctx : Ctx F} {mv : MV F D} {b b' : Bool}

theorem logError_dirty {msg : String} : logError ctx { mv with isDirtyValues := b } msg =
    { logError ctx mv msg with isDirtyValues := b } := by
  unfold logError; split <;> rfl
theorem logError_isDirty {msg : String} : (logError ctx mv msg).isDirtyValues = mv.isDirtyValues := by
  unfold logError; split <;> rfl

theorem US.fail {msg : String} : US mv b i (failM ctx mv msg i)
    (failM ctx { mv with isDirtyValues := b } msg 0) := by
  unfold failM logError
  split
  · exact .err _
  · exact .err mv.trace
theorem US.take (hn : i < n) (hl : l[i]? = some v) {f : α → D} :
    US mv b i (takeScalar ctx mv (some l) n i f)
      (takeScalar ctx { mv with isDirtyValues := b } (some [v]) 1 0 f) := by
  have e : takeScalar ctx mv (some l) n i f =
      .ret ({ mv with data := f v, isDirtyValues := true }, .OK, i + 1) := by
    simp only [takeScalar, assertNValues, Ptr.read, hl, Outcome.ret_bind]
    rw [if_neg (by omega)]
  rw [e]; exact .ok _ true
theorem US.notNull {k k' : MRes F D Nat} {c c' : Nat} {mv' mv₀ : MV F D}
    (h : US mv₀ b' i k k') :
    US mv₀ b' i (assertNotNull ctx mv (some l) c k) (assertNotNull ctx mv' (some [v]) c' k') := h
theorem US.nValues {k k' : MRes F D Nat} {c c' : Nat} {mv' mv₀ : MV F D} (hn : i < n) (h : US mv₀ b' i k k') :
    US mv₀ b' i (assertNValues ctx mv 1 n i c k) (assertNValues ctx mv' 1 1 0 c' k') := by
  unfold assertNValues
  rw [if_neg (by omega), if_neg (by omega)]; exact h
theorem US.read {mv₀ : MV F D} {k k' : α → MRes F D Nat} (hl : l[i]? = some v) (h : US mv₀ b' i (k v) (k' v)) :
    US mv₀ b' i (Ptr.read (some l) i >>- k) (Ptr.read (some [v]) 0 >>- k') := by
  have : Ptr.read (some l) i = .ret v := by simp [Ptr.read, hl]
  rw [this]; exact h
theorem US.ret {mv' mv₀ : MV F D} {b'' : Bool} (h : mv' = { mv with isDirtyValues := b'' }) :
    US mv₀ b' i (.ret (mv, .OK, i + 1)) (.ret (mv', .OK, 0 + 1)) := h ▸ .ok mv b''
theorem US.setStub {t : VType} {l : List (t.Val F)} {v : t.Val F} {vr : Nat} :
    US mv b i (Verif.setStub t ctx mv vr (some l) n i)
      (Verif.setStub t ctx { mv with isDirtyValues := b } vr (some [v]) 1 0) := US.fail

end

/-- The result keeps a cleared dirty flag. -/
def CleanR {β : Type} (r : MRes F D β) : Prop := r.All fun x => x.1.isDirtyValues = false

section
variable {α β : Type} {ctx : Ctx F} {mv : MV F D}
theorem CleanR.fail (h : mv.isDirtyValues = false) {msg : String} {b : β} : CleanR (failM ctx mv msg b) :=
  Outcome.all_ret.2 (logError_isDirty.trans h)
theorem CleanR.put (h : mv.isDirtyValues = false) {p : Ptr α} {n i : Nat} {v : α} :
    CleanR (putScalar ctx mv p n i v) := by
  unfold putScalar assertNValues
  split
  · exact .fail h
  · exact Outcome.all_bind.2 fun _ _ => Outcome.all_ret.2 h
theorem CleanR.notNull (h : mv.isDirtyValues = false) {p : Option α} {b : β} {k : MRes F D β}
    (hk : CleanR k) : CleanR (assertNotNull ctx mv p b k) := by
  unfold assertNotNull
  split
  · exact .fail h
  · exact hk
theorem CleanR.nValues (h : mv.isDirtyValues = false) {n nv i : Nat} {b : β} {k : MRes F D β}
    (hk : CleanR k) : CleanR (assertNValues ctx mv n nv i b k) := by
  unfold assertNValues
  split
  · exact .fail h
  · exact hk
theorem CleanR.write (h : mv.isDirtyValues = false) {p : Outcome α} {f : α → β} :
    CleanR (p >>- fun p => .ret (mv, .OK, f p)) :=
  Outcome.all_bind.2 fun _ _ => Outcome.all_ret.2 h
theorem CleanR.ret (h : mv.isDirtyValues = false) {s : Status} {b : β} : CleanR (.ret (mv, s, b)) :=
  Outcome.all_ret.2 h
end

/-- The result of a successful setter has the dirty flag set. -/
def MarksR (r : MRes F D Nat) : Prop := r.All fun x => x.2.1 = .OK → x.1.isDirtyValues = true

section
variable {α : Type} {ctx : Ctx F} {mv : MV F D}
theorem MarksR.fail {msg : String} {b : Nat} : MarksR (failM ctx mv msg b) := by
  simp [MarksR, failM]
theorem MarksR.take {p : Ptr α} {n i : Nat} {f : α → D} : MarksR (takeScalar ctx mv p n i f) := by
  unfold takeScalar assertNValues
  split
  · exact .fail
  · exact Outcome.all_bind.2 fun _ _ => by simp
theorem MarksR.notNull {p : Option α} {b : Nat} {k : MRes F D Nat}
    (hk : MarksR k) : MarksR (assertNotNull ctx mv p b k) := by
  unfold assertNotNull
  split
  · exact .fail
  · exact hk
theorem MarksR.nValues {n nv i : Nat} {b : Nat} {k : MRes F D Nat}
    (hk : MarksR k) : MarksR (assertNValues ctx mv n nv i b k) := by
  unfold assertNValues
  split
  · exact .fail
  · exact hk
theorem MarksR.bind {β : Type} {r : Outcome β} {k : β → MRes F D Nat} (h : ∀ a, MarksR (k a)) :
    MarksR (r >>- k) := Outcome.all_bind.2 fun a _ => h a
theorem MarksR.ret {d : D} {j : Nat} : MarksR (.ret ({ mv with data := d, isDirtyValues := true }, .OK, j)) := by
  simp [MarksR]
theorem MarksR.ub : MarksR (F := F) (D := D) .ub := by simp [MarksR]
end

/-- Prove `UG` of two calls of a getter. -/
macro "muniget" hn:term:max hl:term:max : tactic =>
  `(tactic| repeat' (first
    | with_reducible exact UG.getStub
    | with_reducible exact UG.fail
    | with_reducible exact UG.put $hn $hl
    | with_reducible exact UG.write $hl
    | with_reducible exact UG.ub
    | with_reducible refine UG.notNull ?_
    | with_reducible refine UG.nValues $hn ?_
    | contradiction
    | split))

/-- Prove `US` of two calls of a setter. -/
macro "muniset" hn:term:max hl:term:max : tactic =>
  `(tactic| repeat' (first
    | with_reducible exact US.setStub
    | with_reducible exact US.fail
    | with_reducible exact US.take $hn $hl
    | with_reducible exact US.ub
    | with_reducible refine US.notNull ?_
    | with_reducible refine US.nValues $hn ?_
    | with_reducible refine US.read $hl ?_
    | with_reducible refine US.ret rfl
    | contradiction
    | split))

/-- Prove `CleanR` of a getter. -/
macro "mclean" h:term:max : tactic =>
  `(tactic| repeat' (first
    | exact CleanR.fail rfl
    | exact CleanR.fail $h
    | exact CleanR.put rfl
    | exact CleanR.put $h
    | exact CleanR.write $h
    | with_reducible refine CleanR.notNull $h ?_
    | with_reducible refine CleanR.nValues $h ?_
    | split))

/-- Prove `MarksR` of a setter. -/
macro "mmarks" : tactic =>
  `(tactic| repeat' (first
    | with_reducible exact MarksR.fail
    | with_reducible exact MarksR.take
    | with_reducible exact MarksR.ub
    | with_reducible exact MarksR.ret
    | with_reducible refine MarksR.notNull ?_
    | with_reducible refine MarksR.nValues ?_
    | (with_reducible refine MarksR.bind ?_) <;> intro _
    | split))

theorem Model.UniGet.intro {t : VType} {vr : Nat}
    (h1 : ∀ ctx mv l n i x, i < n → i < l.length →
      UG x l i (m.get t ctx mv vr (some l) n i) (m.get t ctx mv vr (some [x]) 1 0))
    (h2 : ∀ ctx mv p n i, mv.isDirtyValues = false → CleanR (m.get t ctx mv vr p n i)) : m.UniGet t vr :=
  ⟨h1, fun _ _ _ _ _ _ _ _ e h => h2 _ _ _ _ _ h _ e⟩

theorem Model.MarkSet.intro {t : VType} {vr : Nat}
    (h1 : ∀ ctx mv b l n i v, i < n → l[i]? = some v →
      US mv b i (m.set t ctx mv vr (some l) n i)
        (m.set t ctx { mv with isDirtyValues := b } vr (some [v]) 1 0))
    (h2 : ∀ ctx mv p n i, MarksR (m.set t ctx mv vr p n i)) : m.MarkSet t vr :=
  ⟨⟨h1⟩, fun _ _ _ _ _ _ _ e => h2 _ _ _ _ _ _ e rfl⟩

variable [Arith F]

theorem Dahlquist.uniGet (t vr) : (Dahlquist.model (F := F)).UniGet t vr := by
  apply Model.UniGet.intro
  · intro ctx mv l n i x hn hl
    cases t <;> simp only [Dahlquist.model, Dahlquist.getFloat64] <;> muniget hn hl
  · intro ctx mv p n i h
    cases t <;> simp only [Dahlquist.model, Dahlquist.getFloat64, getStub] <;> mclean h

theorem Dahlquist.markSet (t vr) : (Dahlquist.model (F := F)).MarkSet t vr := by
  apply Model.MarkSet.intro
  · intro ctx mv b l n i v hn hl
    cases t <;> simp only [Dahlquist.model, Dahlquist.setFloat64] <;> muniset hn hl
  · intro ctx mv p n i
    cases t <;> simp only [Dahlquist.model, Dahlquist.setFloat64, setStub] <;> mmarks

theorem BouncingBall.uniGet (t vr) : (BouncingBall.model (F := F)).UniGet t vr := by
  apply Model.UniGet.intro
  · intro ctx mv l n i x hn hl
    cases t <;> simp only [BouncingBall.model, BouncingBall.getFloat64] <;> muniget hn hl
  · intro ctx mv p n i h
    cases t <;> simp only [BouncingBall.model, BouncingBall.getFloat64, getStub] <;> mclean h

theorem BouncingBall.markSet (t vr) : (BouncingBall.model (F := F)).MarkSet t vr := by
  apply Model.MarkSet.intro
  · intro ctx mv b l n i v hn hl
    cases t <;> simp only [BouncingBall.model, BouncingBall.setFloat64] <;> muniset hn hl
  · intro ctx mv p n i
    cases t <;> simp only [BouncingBall.model, BouncingBall.setFloat64, setStub] <;> mmarks

theorem VanDerPol.uniGet (t vr) : (VanDerPol.model (F := F)).UniGet t vr := by
  apply Model.UniGet.intro
  · intro ctx mv l n i x hn hl
    cases t <;> simp only [VanDerPol.model, VanDerPol.getFloat64] <;> muniget hn hl
  · intro ctx mv p n i h
    cases t <;> simp only [VanDerPol.model, VanDerPol.getFloat64, getStub] <;> mclean h

theorem VanDerPol.markSet (t vr) : (VanDerPol.model (F := F)).MarkSet t vr := by
  apply Model.MarkSet.intro
  · intro ctx mv b l n i v hn hl
    cases t <;> simp only [VanDerPol.model, VanDerPol.setFloat64] <;> muniset hn hl
  · intro ctx mv p n i
    cases t <;> simp only [VanDerPol.model, VanDerPol.setFloat64, setStub] <;> mmarks

theorem Roberts.uniGet (t vr) : (Roberts.model (F := F)).UniGet t vr := by
  apply Model.UniGet.intro
  · intro ctx mv l n i x hn hl
    cases t <;> simp only [Roberts.model, Roberts.getFloat64, Roberts.getBoolean] <;> muniget hn hl
  · intro ctx mv p n i h
    cases t <;> simp only [Roberts.model, Roberts.getFloat64, Roberts.getBoolean, getStub] <;> mclean h

theorem Roberts.markSet (t vr) : (Roberts.model (F := F)).MarkSet t vr := by
  apply Model.MarkSet.intro
  · intro ctx mv b l n i v hn hl
    cases t <;> simp only [Roberts.model, Roberts.setFloat64, Roberts.setBoolean] <;> muniset hn hl
  · intro ctx mv p n i
    cases t <;> simp only [Roberts.model, Roberts.setFloat64, Roberts.setBoolean, setStub] <;> mmarks

theorem Stair.uniGet (t vr) : (Stair.model (F := F)).UniGet t vr := by
  apply Model.UniGet.intro
  · intro ctx mv l n i x hn hl
    cases t <;> simp only [Stair.model, Stair.getFloat64, Stair.getInt32] <;> muniget hn hl
  · intro ctx mv p n i h
    cases t <;> simp only [Stair.model, Stair.getFloat64, Stair.getInt32, getStub] <;> mclean h

theorem Stair.markSet (t vr) : (Stair.model (F := F)).MarkSet t vr := by
  apply Model.MarkSet.intro
  · intro ctx mv b l n i v hn hl
    cases t <;> simp only [Stair.model, Stair.setInt32] <;> muniset hn hl
  · intro ctx mv p n i
    cases t <;> simp only [Stair.model, Stair.setInt32, setStub] <;> mmarks

theorem Feedthrough.uniGet {v3 : Bool} (t vr) : (Feedthrough.model v3 (F := F)).UniGet t vr := by
  apply Model.UniGet.intro
  · intro ctx mv l n i x hn hl
    cases t <;> simp only [Feedthrough.model, Feedthrough.getFloat32, Feedthrough.getFloat64, Feedthrough.getInt8, Feedthrough.getUInt8, Feedthrough.getInt16, Feedthrough.getUInt16, Feedthrough.getInt32, Feedthrough.getUInt32, Feedthrough.getInt64, Feedthrough.getUInt64, Feedthrough.getBoolean, Feedthrough.getString, Feedthrough.getBinary] <;> muniget hn hl
  · intro ctx mv p n i h
    cases t <;> simp only [Feedthrough.model, Feedthrough.getFloat32, Feedthrough.getFloat64, Feedthrough.getInt8, Feedthrough.getUInt8, Feedthrough.getInt16, Feedthrough.getUInt16, Feedthrough.getInt32, Feedthrough.getUInt32, Feedthrough.getInt64, Feedthrough.getUInt64, Feedthrough.getBoolean, Feedthrough.getString, Feedthrough.getBinary, getStub] <;> mclean h

theorem Feedthrough.markSet {v3 : Bool} (t vr) : (Feedthrough.model v3 (F := F)).MarkSet t vr := by
  apply Model.MarkSet.intro
  · intro ctx mv b l n i v hn hl
    cases t <;> simp only [Feedthrough.model, Feedthrough.setFloat32, Feedthrough.setFloat64, Feedthrough.setInt8, Feedthrough.setUInt8, Feedthrough.setInt16, Feedthrough.setUInt16, Feedthrough.setInt32, Feedthrough.setUInt32, Feedthrough.setInt64, Feedthrough.setUInt64, Feedthrough.setBoolean, Feedthrough.setString, Feedthrough.setBinary] <;> muniset hn hl
  · intro ctx mv p n i
    cases t <;> simp only [Feedthrough.model, Feedthrough.setFloat32, Feedthrough.setFloat64, Feedthrough.setInt8, Feedthrough.setUInt8, Feedthrough.setInt16, Feedthrough.setUInt16, Feedthrough.setInt32, Feedthrough.setUInt32, Feedthrough.setInt64, Feedthrough.setUInt64, Feedthrough.setBoolean, Feedthrough.setString, Feedthrough.setBinary, setStub] <;> mmarks

theorem Clocks.uniGet (t vr) : (Clocks.model (F := F)).UniGet t vr := by
  apply Model.UniGet.intro
  · intro ctx mv l n i x hn hl
    cases t <;> simp only [Clocks.model, Clocks.getFloat64, Clocks.getInt32] <;> muniget hn hl
  · intro ctx mv p n i h
    cases t <;> simp only [Clocks.model, Clocks.getFloat64, Clocks.getInt32, getStub] <;> mclean h

theorem Clocks.uniSet (t vr) : (Clocks.model (F := F)).UniSet t vr where
  uni := by
    intro ctx mv b l n i v hn hl
    cases t <;> simp only [Clocks.model, Clocks.setInt32] <;> muniset hn hl

theorem Resource.calc_clean {v3 : Bool} {fs} {ctx : Ctx F} {mv : MV F Resource.Data}
    (h : mv.isDirtyValues = false) : CleanR (Resource.calculateValues v3 fs ctx mv) := by
  unfold Resource.calculateValues
  refine Outcome.all_bind.2 fun r _ => ?_
  show CleanR _
  split
  · exact .fail h
  · split
    · exact .fail h
    · exact .ret rfl

theorem Resource.calc_hang {v3 : Bool} {fs} {ctx : Ctx F} {mv : MV F Resource.Data} :
    Resource.calculateValues v3 fs ctx mv ≠ .hang := by
  unfold Resource.calculateValues
  cases h : resourcePath v3 ctx.resourceLocation with
  | ret r =>
    simp only [Outcome.ret_bind, failM]
    split
    · simp
    · split <;> simp
  | ub => simp
  | hang => exact absurd h (by
      unfold resourcePath
      repeat' first | split | (intro h; cases h) | simp only [])

theorem Resource.uniGet {v3 : Bool} {fs} (t vr) : (Resource.model v3 fs : Model F _).UniGet t vr := by
  apply Model.UniGet.intro
  · intro ctx mv l n i x hn hl
    cases t <;> simp only [Resource.model, Resource.getFloat64, Resource.getInt32] <;> muniget hn hl
    all_goals
      refine UG.bind Resource.calc_hang ?_
      rintro ⟨mv, -, -⟩
      simp only
      muniget hn hl
  · intro ctx mv p n i h
    cases t <;> simp only [Resource.model, Resource.getFloat64, Resource.getInt32, getStub] <;> mclean h
    all_goals
      refine Outcome.All.bind (Resource.calc_clean h) ?_
      rintro ⟨mv', _, _⟩ h'
      show CleanR _
      simp only at h' ⊢
      mclean h'

theorem Resource.markSet {v3 : Bool} {fs} (t vr) : (Resource.model v3 fs : Model F _).MarkSet t vr := by
  apply Model.MarkSet.intro
  · intro ctx mv b l n i v hn hl
    cases t <;> simp only [Resource.model] <;> muniset hn hl
  · intro ctx mv p n i
    cases t <;> simp only [Resource.model, setStub] <;> mmarks

/-- The variables of the StateSpace FMU that are not arrays (and everything that is no variable). -/
theorem StateSpace.uniGet (t vr) (h : t = .float64 → vr < 4 ∨ 12 < vr) :
    (StateSpace.model (F := F)).UniGet t vr := by
  apply Model.UniGet.intro
  · intro ctx mv l n i x hn hl
    cases t <;> simp only [StateSpace.model, StateSpace.getFloat64, StateSpace.getUInt64]
    case float64 =>
      have := h rfl
      refine UG.notNull (UG.bind ?_ fun mv => ?_)
      · unfold StateSpace.calculateValues StateSpace.guarded; split <;> simp
      · split <;> first | omega | skip
        · exact UG.put hn hl
        · exact UG.fail
    all_goals muniget hn hl
  · intro ctx mv p n i hd
    cases t <;> simp only [StateSpace.model, StateSpace.getFloat64, StateSpace.getUInt64, getStub]
    case float64 =>
      have := h rfl
      refine CleanR.notNull hd (Outcome.all_bind.2 fun mv' e => ?_)
      have hd' : mv'.isDirtyValues = false := by
        unfold StateSpace.calculateValues StateSpace.guarded at e
        split at e <;> cases e
        rfl
      show CleanR _
      split <;> first | omega | skip
      · exact CleanR.put hd'
      · exact CleanR.fail hd'
    all_goals mclean hd

/-- The FMI 3.0 FMUs all of whose variables are scalars: all but StateSpace. -/
theorem ScalarFMU3.uniGet {m : Model F D} (h : ScalarFMU3 m) (t vr) : m.UniGet t vr := by
  cases h
  · exact BouncingBall.uniGet t vr
  · exact Clocks.uniGet t vr
  · exact Dahlquist.uniGet t vr
  · exact Feedthrough.uniGet t vr
  · exact Resource.uniGet t vr
  · exact Roberts.uniGet t vr
  · exact Stair.uniGet t vr
  · exact VanDerPol.uniGet t vr

theorem ScalarFMU3.markSet {m : Model F D} (h : ScalarFMU3 m) : (∀ t vr, m.MarkSet t vr) ∨
    (∀ t vr, m.UniSet t vr) ∧ ∀ ctx mv, m.calculateValues ctx mv = .ret (mv, .OK, ()) := by
  cases h
  · exact .inl BouncingBall.markSet
  · exact .inr ⟨Clocks.uniSet, fun _ _ => rfl⟩
  · exact .inl Dahlquist.markSet
  · exact .inl Feedthrough.markSet
  · exact .inl Resource.markSet
  · exact .inl Roberts.markSet
  · exact .inl Stair.markSet
  · exact .inl VanDerPol.markSet

theorem ScalarFMU3.uniSet {m : Model F D} (h : ScalarFMU3 m) (t vr) : m.UniSet t vr :=
  h.markSet.elim (fun h => (h t vr).toUniSet) fun h => h.1 t vr

theorem RefFMU2.uniGet {m : Model F D} (h : RefFMU2 m) (t vr) : m.UniGet t vr := by
  cases h
  · exact BouncingBall.uniGet t vr
  · exact Dahlquist.uniGet t vr
  · exact Feedthrough.uniGet t vr
  · exact Resource.uniGet t vr
  · exact Stair.uniGet t vr
  · exact VanDerPol.uniGet t vr

theorem RefFMU2.markSet {m : Model F D} (h : RefFMU2 m) (t vr) : m.MarkSet t vr := by
  cases h
  · exact BouncingBall.markSet t vr
  · exact Dahlquist.markSet t vr
  · exact Feedthrough.markSet t vr
  · exact Resource.markSet t vr
  · exact Stair.markSet t vr
  · exact VanDerPol.markSet t vr

end Verif
