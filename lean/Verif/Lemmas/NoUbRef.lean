import Verif.Lemmas.NoUbApi
import Verif.Lemmas.VectorsRef
import Verif.Lemmas.Fixed

/-!
# Calls without undefined behaviour: the Reference FMUs

`Model.Safe` for every Reference FMU.
-/

set_option linter.unusedSectionVars false

namespace Verif
variable {F D : Type}

/-- A Get function: no undefined behaviour, and the array keeps its room. -/
def GetS {α : Type} (n : Nat) (r : MRes F D (Ptr α × Nat)) : Prop := r.Safe fun x => Ptr.Has x.2.2.1 n
/-- A Set function: no undefined behaviour, and success advances the index by one where `e` holds. -/
def SetS (i : Nat) (e : Prop) (r : MRes F D Nat) : Prop := r.Safe fun x => x.2.1 = .OK → e → x.2.2 = i + 1
/-- A Get function called with one Boolean. -/
def BoolS (r : MRes F D (Ptr Bool × Nat)) : Prop := r.Safe fun x => ∃ v, x.2.2.1 = some [v]
/-- A function on a vector: no undefined behaviour, and the vector keeps its length. -/
def VecS (p : Ptr F) (r : MRes F D (Ptr F)) : Prop := r.Safe fun x => Ptr.SameLen p x.2.2

section
variable {ctx : Ctx F} {mv : MV F D} {α : Type} {n i : Nat} {p : Ptr α} {e : Prop}

theorem has_some' {p : Ptr α} {n : Nat} (h : p.Has n) (hp : ¬ p.isNone = true) : ∃ l, p = some l ∧ n ≤ l.length := by
  rcases h with rfl | ⟨l, rfl, h⟩
  · cases p with
    | none => simp at hp
    | some l => exact ⟨l, rfl, Nat.zero_le _⟩
  · exact ⟨l, rfl, h⟩

theorem GetS.fail {msg : String} (h : p.Has n) : GetS n (failM ctx mv msg (p, i)) := .ret h
theorem GetS.stub {t : VType} {p : Ptr (t.Val F)} {vr : Nat} (h : p.Has n) : GetS n (getStub t ctx mv vr p n i) := .ret h
theorem GetS.put {v : α} (h : p.Has n) : GetS n (putScalar ctx mv p n i v) := by
  unfold putScalar assertNValues
  split
  · exact .fail h
  · exact (h.write (by omega)).bind fun q hq => .ret hq
theorem GetS.notNull {k : MRes F D (Ptr α × Nat)} (h : p.Has n) (hk : GetS n k) :
    GetS n (assertNotNull ctx mv p (p, i) k) := by
  unfold assertNotNull
  split
  · exact .fail h
  · exact hk
theorem GetS.nValues {N : Nat} {k : MRes F D (Ptr α × Nat)} (h : p.Has n) (hk : i + N ≤ n → GetS n k) :
    GetS n (assertNValues ctx mv N n i (p, i) k) := by
  unfold assertNValues
  split
  · exact .fail h
  · exact hk (by omega)

theorem SetS.fail {msg : String} {j : Nat} : SetS i e (failM ctx mv msg j) := .ret nofun
theorem SetS.stub {t : VType} {p : Ptr (t.Val F)} {vr : Nat} : SetS i e (setStub t ctx mv vr p n i) := .ret nofun
theorem SetS.take {u : α → D} (h : p.Has n) : SetS i e (takeScalar ctx mv p n i u) := by
  unfold takeScalar assertNValues
  split
  · exact .fail
  · exact (h.read (by omega)).bind fun q hq => .ret fun _ _ => rfl
theorem SetS.notNull {k : MRes F D Nat} {j : Nat} (hk : SetS i e k) : SetS i e (assertNotNull ctx mv p j k) := by
  unfold assertNotNull
  split
  · exact .fail
  · exact hk
theorem SetS.nValues {N j : Nat} {k : MRes F D Nat} (hk : j + N ≤ n → SetS i e k) :
    SetS i e (assertNValues ctx mv N n j j k) := by
  unfold assertNValues
  split
  · exact .fail
  · exact hk (by omega)

theorem BoolS.fail {msg : String} {b : Bool} : BoolS (failM ctx mv msg (some [b], i)) := .ret ⟨b, rfl⟩
theorem BoolS.put {b v : Bool} : BoolS (putScalar ctx mv (some [b]) n 0 v) := by
  unfold putScalar assertNValues
  split
  · exact .fail
  · exact .ret ⟨v, rfl⟩
theorem BoolS.notNull {b : Bool} {k : MRes F D (Ptr Bool × Nat)} (hk : BoolS k) :
    BoolS (assertNotNull ctx mv (some [b]) (some [b], i) k) := hk
theorem noUb_takeB {b : Bool} {u : Bool → D} : (takeScalar ctx mv (some [b]) n 0 u).NoUb := by
  unfold takeScalar assertNValues
  split
  · exact .ret
  · exact .ret

theorem sameLen_refl {p : Ptr α} : Ptr.SameLen p p := rfl

theorem VecS.stub {p : Ptr F} : VecS p (vecStub ctx mv p n) := by
  unfold vecStub assertSize
  split
  · exact .ret rfl
  · exact .ret rfl
theorem VecS.put {mv' : MV F D} {p : Ptr F} {vs : List F} (h : p.Has n) : VecS p (putVector ctx mv mv' p n vs) := by
  unfold putVector assertNotNull assertSize
  split
  · exact .ret rfl
  · next hp =>
    split
    · exact .ret rfl
    · obtain ⟨l, rfl, hl⟩ := has_some' h hp
      refine (writeN_safe (by omega)).bind ?_
      rintro q ⟨l', rfl, hl'⟩
      exact .ret (by simp [Ptr.SameLen, hl'])
theorem VecS.take {p : Ptr F} {k : Nat} {u : List F → D} (h : p.Has n) : VecS p (takeVector ctx mv p n k u) := by
  unfold takeVector assertNotNull assertSize
  split
  · exact .ret rfl
  · next hp =>
    split
    · exact .ret rfl
    · obtain ⟨l, rfl, hl⟩ := has_some' h hp
      exact (readN_safe (by omega)).bind fun _ _ => .ret rfl
end

/-- Prove `GetS` of an accessor, given room in the array. -/
macro "gsafe" h:term : tactic =>
  `(tactic| repeat' (first
    | with_reducible exact GetS.stub $h
    | with_reducible exact GetS.fail $h
    | with_reducible exact GetS.put $h
    | with_reducible refine GetS.notNull $h ?_
    | split))

/-- Prove `SetS` of an accessor, given room in the array. -/
macro "ssafe" h:term : tactic =>
  `(tactic| repeat' (first
    | with_reducible exact SetS.stub
    | with_reducible exact SetS.fail
    | with_reducible exact SetS.take $h
    | with_reducible refine SetS.notNull ?_
    | split))

section
variable [Arith F] [HasInf F]

theorem BouncingBall.safe : (BouncingBall.model (F := F)).Safe (fun _ => False) (fun _ => True) (fun _ => True) (fun _ => True) where
  okOrError := BouncingBall.eff.okOrError
  const _ _ := trivial
  step _ _ := trivial
  dirty _ _ := trivial
  trace _ _ := trivial
  nx _ := Nat.le_refl _
  nz _ := Nat.le_refl _
  «calc» _ _ := .ret
  get {ctx mv t vr p n i} _ _ h := by
    change GetS n _
    cases t <;> simp only [model, getFloat64] <;> gsafe h
  set {ctx mv t vr p n i} _ _ h _ _ := by
    change SetS i _ _
    cases t <;> simp only [model, setFloat64] <;> ssafe h
  getB _ _ := BoolS.fail
  setB _ _ := .ret
  getX _ _ h := VecS.put h
  nominals _ _ h := (VecS.put h).1
  setX _ _ h := (VecS.take h).1
  getDX _ _ h := VecS.put h
  getZ _ _ h := VecS.put h
  partialD := .ret
  outD {f ctx mv vr o v} e := by
    cases e
    unfold getOutputDerivative
    simp only
    repeat' split
    all_goals exact .ret
  activate := .ret
  getClock := .ret
  getInterval := .ret
  event e _ _ _ := by cases e; exact .ret fun _ => trivial
  room _ _ := trivial
  keep _ _ _ _ := trivial
  keepTrace _ _ := trivial

theorem Dahlquist.safe : (Dahlquist.model (F := F)).Safe (fun _ => False) (fun _ => True) (fun _ => True) (fun _ => True) where
  okOrError := Dahlquist.eff.okOrError
  const _ _ := trivial
  step _ _ := trivial
  dirty _ _ := trivial
  trace _ _ := trivial
  nx _ := Nat.le_refl _
  nz _ := Nat.le_refl _
  «calc» _ _ := .ret
  get {ctx mv t vr p n i} _ _ h := by
    change GetS n _
    cases t <;> simp only [model, getFloat64] <;> gsafe h
  set {ctx mv t vr p n i} _ _ h _ _ := by
    change SetS i _ _
    cases t <;> simp only [model, setFloat64] <;> ssafe h
  getB _ _ := BoolS.fail
  setB _ _ := .ret
  getX _ _ h := VecS.put h
  nominals _ _ h := (VecS.put h).1
  setX _ _ h := (VecS.take h).1
  getDX _ _ h := VecS.put h
  getZ _ _ _ := VecS.stub
  partialD := .ret
  outD e := nomatch e
  activate := .ret
  getClock := .ret
  getInterval := .ret
  event e _ _ _ := nomatch e
  room _ _ := trivial
  keep _ _ _ _ := trivial
  keepTrace _ _ := trivial

theorem VanDerPol.safe : (VanDerPol.model (F := F)).Safe (fun _ => False) (fun _ => True) (fun _ => True) (fun _ => True) where
  okOrError := VanDerPol.eff.okOrError
  const _ _ := trivial
  step _ _ := trivial
  dirty _ _ := trivial
  trace _ _ := trivial
  nx _ := Nat.le_refl _
  nz _ := Nat.le_refl _
  «calc» _ _ := .ret
  get {ctx mv t vr p n i} _ _ h := by
    change GetS n _
    cases t <;> simp only [model, getFloat64] <;> gsafe h
  set {ctx mv t vr p n i} _ _ h _ _ := by
    change SetS i _ _
    cases t <;> simp only [model, setFloat64] <;> ssafe h
  getB _ _ := BoolS.fail
  setB _ _ := .ret
  getX _ _ h := VecS.put h
  nominals _ _ h := (VecS.put h).1
  setX _ _ h := (VecS.take h).1
  getDX _ _ h := VecS.put h
  getZ _ _ _ := VecS.stub
  partialD {ctx mv u k o} := by
    simp only [model, getPartialDerivative]
    repeat' split
    all_goals exact .ret
  outD e := nomatch e
  activate := .ret
  getClock := .ret
  getInterval := .ret
  event e _ _ _ := nomatch e
  room _ _ := trivial
  keep _ _ _ _ := trivial
  keepTrace _ _ := trivial

theorem Roberts.safe : (Roberts.model (F := F)).Safe (fun _ => False) (fun _ => True) (fun _ => True) (fun _ => True) where
  okOrError := Roberts.eff.okOrError
  const _ _ := trivial
  step _ _ := trivial
  dirty _ _ := trivial
  trace _ _ := trivial
  nx _ := Nat.le_refl _
  nz _ := Nat.le_refl _
  «calc» _ _ := .ret
  get {ctx mv t vr p n i} _ _ h := by
    change GetS n _
    cases t <;> simp only [model, getFloat64, getBoolean] <;> gsafe h
  set {ctx mv t vr p n i} _ _ h _ _ := by
    change SetS i _ _
    cases t <;> simp only [model, setFloat64, setBoolean] <;> ssafe h
  getB {ctx mv vr b n} _ _ := by
    change BoolS _
    simp only [model, getBoolean]
    refine .notNull ?_
    split
    · exact .put
    · exact .fail
  setB {ctx mv vr b n} _ _ := by
    simp only [model, setBoolean, assertNotNull, Option.isNone_some, Bool.false_eq_true, if_false]
    split
    · exact noUb_takeB
    · exact .ret
  getX _ _ h := VecS.put h
  nominals _ _ h := (VecS.put h).1
  setX _ _ h := (VecS.take h).1
  getDX _ _ h := VecS.put h
  getZ _ _ h := VecS.put h
  partialD := .ret
  outD e := nomatch e
  activate := .ret
  getClock := .ret
  getInterval := .ret
  event e _ _ _ := nomatch e
  room _ _ := trivial
  keep _ _ _ _ := trivial
  keepTrace _ _ := trivial

/-- For FMI 3.0 the path of the resource file must fit into the buffer. -/
def Resource.Fits (ver3 : Bool) (ctx : Ctx F) : Prop :=
  ver3 = true → ∀ l, ctx.resourceLocation = some l → l.length < maxPathLength

theorem Resource.calc_noUb {ver3 : Bool} {fs : FileSystem} {ctx : Ctx F} {mv : MV F Data} (h : Fits ver3 ctx) :
    (calculateValues ver3 fs ctx mv).NoUb := by
  have hp : (resourcePath ver3 ctx.resourceLocation).NoUb := by
    unfold resourcePath
    split
    · exact .ret
    · next l hl =>
      split
      · next hv =>
        have := h hv _ hl
        rw [if_neg (by omega)]
        exact .ret
      · simp only
        repeat' split
        all_goals exact .ret
  refine hp.bind fun r => ?_
  repeat' split
  all_goals exact .ret

theorem Resource.safe (ver3 : Bool) (fs : FileSystem) :
    (Resource.model (F := F) ver3 fs).Safe (fun _ => False) (Fits ver3) (fun _ => True) (fun _ => True) where
  okOrError := Resource.eff.okOrError
  const {c c'} h hf hv l hl := hf hv l (by rw [← hl]; exact h.2.1.symm)
  step _ _ := trivial
  dirty _ _ := trivial
  trace _ _ := trivial
  nx _ := Nat.le_refl _
  nz _ := Nat.le_refl _
  «calc» h _ := calc_noUb h
  get {ctx mv t vr p n i} hc _ h := by
    change GetS n _
    have key : ∀ {α : Type} {p : Ptr α} {k : MV F Data × Status × Unit → MRes F Data (Ptr α × Nat)}, (∀ x, GetS n (k x)) →
        GetS n (calculateValues ver3 fs ctx mv >>- k) := fun hk => (calc_noUb hc).safe'.bind fun x _ => hk x
    cases t <;> simp only [model, getFloat64, getInt32] <;>
      first
      | exact GetS.stub h
      | (refine GetS.notNull h (key (p := p) fun x => ?_); gsafe h)
  set {ctx mv t vr p n i} _ _ _ _ _ := SetS.stub (vr := vr) (n := n) (p := p)
  getB _ _ := BoolS.fail
  setB _ _ := .ret
  getX _ _ _ := VecS.stub
  nominals _ _ _ := VecS.stub.1
  setX _ _ _ := VecS.stub.1
  getDX _ _ _ := VecS.stub
  getZ _ _ _ := VecS.stub
  partialD := .ret
  outD e := nomatch e
  activate := .ret
  getClock := .ret
  getInterval := .ret
  event e _ _ _ := nomatch e
  room _ _ := trivial
  keep _ _ _ _ := trivial
  keepTrace _ _ := trivial

/-- The data types whose Set function in Feedthrough reads the value before it checks the number of
values. -/
def Feedthrough.Early (ver3 : Bool) : VType → Prop
  | .int32 => ver3 = false
  | .int64 => ver3 = true
  | .string => True
  | .binary => True
  | _ => False

theorem Ptr.read_mem {α : Type} {p : Ptr α} {n i : Nat} (h : p.Has n) (hi : i < n) :
    (p.read i).Safe fun v => ∃ l, p = some l ∧ v ∈ l := by
  rcases h with h | ⟨l, rfl, h⟩
  · omega
  · have : i < l.length := by omega
    simp only [Ptr.read, List.getElem?_eq_getElem this]
    exact .ret ⟨l, rfl, List.getElem_mem _⟩

theorem Feedthrough.safe (ver3 : Bool) :
    (Feedthrough.model (F := F) ver3).Safe (Early ver3) (fun _ => True) (fun _ => True) (fun _ => True) where
  okOrError := Feedthrough.eff.okOrError
  const _ _ := trivial
  step _ _ := trivial
  dirty _ _ := trivial
  trace _ _ := trivial
  nx _ := Nat.le_refl _
  nz _ := Nat.le_refl _
  «calc» _ _ := .ret
  get {ctx mv t vr p n i} _ _ h := by
    change GetS n _
    cases t <;> simp only [model, getFloat32, getFloat64, getInt8, getUInt8, getInt16, getUInt16, getInt32, getUInt32,
      getInt64, getUInt64, getBoolean, getString, getBinary] <;> gsafe h
  set {ctx mv t vr p n i} _ _ h hg he := by
    change SetS i _ _
    cases t
    case int32 =>
      simp only [model, setInt32]
      refine .notNull ?_
      split
      · exact .take h
      · split
        · next hv =>
          refine (h.read (he (by simpa [Early] using hv))).bind fun v _ => ?_
          change SetS i _ _
          split
          · exact .fail
          · exact .take h
        · exact .fail
      · exact .fail
    case int64 =>
      simp only [model, setInt64]
      refine .notNull ?_
      split
      · exact .take h
      · split
        · next hv =>
          refine (h.read (he (by simpa [Early] using hv))).bind fun v _ => ?_
          change SetS i _ _
          split
          · exact .fail
          · exact .take h
        · exact .fail
      · exact .fail
    case string =>
      simp only [model, setString]
      refine .notNull ?_
      split
      · refine (Ptr.read_mem h (he trivial)).bind ?_
        rintro v ⟨l, rfl, hv⟩
        have := hg l rfl v hv
        cases v with
        | none => exact absurd rfl this
        | some s =>
          simp only
          change SetS i _ _
          split
          · exact .fail
          · refine .nValues fun _ => ?_
            split
            · omega
            · exact .ret fun _ _ => rfl
      · exact .fail
    case binary =>
      simp only [model, setBinary]
      refine .notNull ?_
      split
      · refine (Ptr.read_mem h (he trivial)).bind ?_
        rintro v ⟨l, rfl, hv⟩
        obtain ⟨bytes, h1, h2⟩ := hg l rfl v hv
        change SetS i _ _
        split
        · exact .fail
        · refine .nValues fun _ => ?_
          rw [h1]
          simp only
          split
          · omega
          · exact .ret fun _ _ => rfl
      · exact .fail
    all_goals
      simp only [model, setFloat32, setFloat64, setInt8, setUInt8, setInt16, setUInt16, setUInt32, setUInt64, setBoolean]
      ssafe h
  getB {ctx mv vr b n} _ _ := by
    change BoolS _
    simp only [model, getBoolean]
    refine .notNull ?_
    split
    · exact .put
    · exact .put
    · exact .fail
  setB {ctx mv vr b n} _ _ := by
    simp only [model, setBoolean, assertNotNull, Option.isNone_some, Bool.false_eq_true, if_false]
    split
    · exact noUb_takeB
    · exact noUb_takeB
    · exact .ret
  getX _ _ _ := VecS.stub
  nominals _ _ _ := VecS.stub.1
  setX _ _ _ := VecS.stub.1
  getDX _ _ _ := VecS.stub
  getZ _ _ _ := VecS.stub
  partialD := .ret
  outD e := nomatch e
  activate := .ret
  getClock := .ret
  getInterval := .ret
  event e _ _ _ := by cases e; exact .ret fun _ => trivial
  room _ _ := trivial
  keep _ _ _ _ := trivial
  keepTrace _ _ := trivial

/-- Once the counter of Stair is 10, an end of the simulation is requested. -/
def Stair.Bounded (mv : MV F Data) : Prop := 10 ≤ mv.data.counter → mv.terminateSimulation = true

/-- The counter of Stair can be incremented. -/
def Stair.Room (mv : MV F Data) : Prop := mv.data.counter < 2 ^ 31 - 1

theorem Stair.eventUpdate_noUb {ctx : Ctx F} {mv : MV F Data} (h : Room mv) :
    (eventUpdate ctx mv).Safe fun x => x.2.1 = .OK → x.1.data.counter ≤ 10 := by
  unfold eventUpdate
  have h : mv.data.counter < 2 ^ 31 - 1 := h
  refine Outcome.Safe.bind (S := fun _ => True) ?_ ?_
  · split
    · rw [if_neg (by omega)]
      exact .ret trivial
    · exact .ret trivial
  · intro mv' _
    split
    · exact .ret nofun
    · exact .ret fun _ => by simp only; omega

/-- Only Set functions and event updates change the data of Stair. -/
theorem Stair.step_data {f : MFn} {ctx : Ctx F} {mv mv' : MV F Data} {s} (h1 : f ≠ .set) (h2 : f ≠ .event)
    (e : MStep (model : Model F Data) f ctx mv mv' s) : mv'.data = mv.data := by
  have key : ∀ {β : Type} {r : MRes F Data β} {b : β}, r = .ret (mv', s, b) → KeepR (fun d => d) mv.data r →
      mv'.data = mv.data := fun e h => h _ e
  cases e with
  | set => exact absurd rfl h1
  | event => exact absurd rfl h2
  | «calc» e => cases e; rfl
  | @get t vr p n i _ _ _ _ _ e =>
    refine key e ?_
    cases t <;> simp only [model, getFloat64, getInt32] <;> mfixed
  | getStates e => exact key e KeepR.vecStub
  | nominals e => exact key e KeepR.vecStub
  | setStates e => exact key e KeepR.vecStub
  | deriv e => exact key e KeepR.vecStub
  | indicators e => exact key e KeepR.vecStub
  | @partialDeriv u k o _ _ _ _ _ e => exact key e (KeepR.partialStub (u := u) (k := k))
  | outDeriv h => cases h
  | activate e => cases e; rfl
  | getClock e => cases e; rfl
  | getInterval e => cases e; rfl
  | partition e => cases e; rfl

theorem failM_data {β : Type} {ctx : Ctx F} {mv mv' : MV F D} {msg : String} {b b' : β} {s}
    (e : failM ctx mv msg b = .ret (mv', s, b')) : mv'.data = mv.data ∧ mv'.terminateSimulation = mv.terminateSimulation := by
  unfold failM Verif.logError at e
  split at e <;> cases e <;> exact ⟨rfl, rfl⟩

/-- A Set function of Stair stores at most 9 in the counter. -/
theorem Stair.set_data {ctx : Ctx F} {mv mv' : MV F Data} {t vr p n i s b}
    (e : (model : Model F Data).set t ctx mv vr p n i = .ret (mv', s, b)) :
    mv'.data = mv.data ∨ mv'.data.counter ≤ 9 := by
  cases t <;> simp only [model] at e
  case int32 =>
    unfold setInt32 assertNotNull at e
    split at e
    · exact .inl (failM_data e).1
    split at e
    · split at e
      · exact .inl (failM_data e).1
      · obtain ⟨v, hv, e⟩ := Outcome.bind_eq_ret.1 e
        split at e
        · exact .inl (failM_data e).1
        · unfold takeScalar assertNValues at e
          split at e
          · exact .inl (failM_data e).1
          · rw [hv] at e
            cases e
            exact .inr (by simp only; omega)
    · exact .inl (failM_data e).1
  all_goals exact .inl (failM_data e).1

theorem Stair.bounded : MVInv (model : Model F Data) Bounded where
  step {f ctx mv mv' s} h e := by
    by_cases h1 : f = .event
    · subst h1
      cases e with
      | event hu e =>
        cases hu
        unfold eventUpdate at e
        obtain ⟨mv1, e1, e⟩ := Outcome.bind_eq_ret.1 e
        split at e
        · next h10 =>
          have he := failM_data e
          intro h11
          rw [he.2]
          split at e1
          · split at e1
            · cases e1
            · cases e1
              simp only at h10 ⊢
              exact h (by omega)
          · cases e1
            exact h (by omega)
        · cases e
          intro h11
          simpa using h11
    · have ht := (Stair.eff _ _ _ _ _ e).flags h1
      by_cases h2 : f = .set
      · subst h2
        cases e with
        | set e =>
          rcases set_data e with h3 | h3
          · intro h10; rw [ht.1]; rw [h3] at h10; exact h h10
          · intro h10; omega
      · intro h10; rw [ht.1]; rw [step_data h2 h1 e] at h10; exact h h10
  dirty _ h := h
  trace _ h := h
  start {ctx mv} _ := by intro h; simp [model, setStartValues] at h

theorem Stair.safe : (Stair.model (F := F)).Safe (fun t => t = .int32) (fun _ => True) Bounded Room where
  okOrError := Stair.eff.okOrError
  const _ _ := trivial
  step h e := Stair.bounded.step h e
  dirty _ h := h
  trace _ h := h
  nx _ := Nat.le_refl _
  nz _ := Nat.le_refl _
  «calc» _ _ := .ret
  get {ctx mv t vr p n i} _ _ h := by
    change GetS n _
    cases t <;> simp only [model, getFloat64, getInt32] <;> gsafe h
  set {ctx mv t vr p n i} _ _ h _ he := by
    change SetS i _ _
    cases t <;> simp only [model]
    case int32 =>
      unfold setInt32
      refine .notNull ?_
      split
      · split
        · exact .fail
        · refine (h.read (he rfl)).bind fun v _ => ?_
          change SetS i _ _
          split
          · exact .fail
          · exact .take h
      · exact .fail
    all_goals exact .stub
  getB _ _ := BoolS.fail
  setB _ _ := .ret
  getX _ _ _ := VecS.stub
  nominals _ _ _ := VecS.stub.1
  setX _ _ _ := VecS.stub.1
  getDX _ _ _ := VecS.stub
  getZ _ _ _ := VecS.stub
  partialD := .ret
  outD e := nomatch e
  activate := .ret
  getClock := .ret
  getInterval := .ret
  event e _ _ hq := by
    cases e
    refine (eventUpdate_noUb hq).mono fun x hx h => ?_
    have := hx h
    show _ < _
    omega
  room {mv} h ht := by
    by_cases h10 : 10 ≤ mv.data.counter
    · rw [h h10] at ht; cases ht
    · show _ < _; omega
  keep {f ctx mv mv' s} h hs he e := by
    show _ < _
    rw [step_data (by rintro rfl; simp [MFn.solver] at hs) he e]
    exact h
  keepTrace _ h := h

theorem Clocks.safe : (Clocks.model (F := F)).Safe (fun _ => False) (fun _ => True) (fun _ => True) (fun _ => True) where
  okOrError := Clocks.eff.okOrError
  const _ _ := trivial
  step _ _ := trivial
  dirty _ _ := trivial
  trace _ _ := trivial
  nx _ := Nat.le_refl _
  nz _ := Nat.le_refl _
  «calc» _ _ := .ret
  get {ctx mv t vr p n i} _ _ h := by
    change GetS n _
    cases t <;> simp only [model]
    case float64 =>
      unfold getFloat64
      refine .nValues h fun hi => ?_
      split
      · exact (h.write (by omega)).bind fun q hq => .ret hq
      · exact .fail h
    case int32 =>
      unfold getInt32
      refine .nValues h fun hi => ?_
      split
      · exact (h.write (by omega)).bind fun q hq => .ret hq
      · exact .fail h
    all_goals exact .stub h
  set {ctx mv t vr p n i} _ _ h _ _ := by
    change SetS i _ _
    cases t <;> simp only [model]
    case int32 =>
      unfold setInt32
      refine .nValues fun hi => ?_
      split
      · exact (h.read (by omega)).bind fun q hq => .ret fun _ _ => rfl
      · exact .fail
    all_goals exact .stub
  getB _ _ := BoolS.fail
  setB _ _ := .ret
  getX _ _ _ := VecS.stub
  nominals _ _ _ := VecS.stub.1
  setX _ _ _ := VecS.stub.1
  getDX _ _ _ := VecS.stub
  getZ _ _ _ := VecS.stub
  partialD := .ret
  outD e := nomatch e
  activate := .ret
  getClock {ctx mv vr o} := by
    simp only [model, getClock]
    split <;> exact .ret
  getInterval {ctx mv vr i q} := by
    simp only [model, getInterval]
    repeat' split
    all_goals exact .ret
  event e _ _ _ := by cases e; exact .ret fun _ => trivial
  room _ _ := trivial
  keep _ _ _ _ := trivial
  keepTrace _ _ := trivial

namespace StateSpace

theorem guarded_ret {β : Type} {d : Data F} {k : Outcome β} (h : inBounds d = true) : guarded d k = k := by
  simp [guarded, h]

theorem GetS.block {ctx : Ctx F} {mv : MV F (Data F)} {p : Ptr F} {n i : Nat} {l : List F} (h : p.Has n) (hp : p.isNone = false) :
    GetS n (putBlock ctx mv p n i l) := by
  unfold putBlock
  refine .nValues h fun hi => ?_
  obtain ⟨l', rfl, hl⟩ := has_some' h (by simp [hp])
  refine (writeN_safe (by omega)).bind ?_
  rintro q ⟨l'', rfl, hq⟩
  exact .ret (.inr ⟨_, rfl, by omega⟩)

theorem SetS.block {ctx : Ctx F} {mv : MV F (Data F)} {p : Ptr F} {n i k : Nat} {u : List F → Data F} (h : p.Has n) (hp : p.isNone = false)
    (hb : InBounds mv) : SetS i False (takeBlock ctx mv p n i k u) := by
  unfold takeBlock
  refine .nValues fun hi => ?_
  rw [guarded_ret hb]
  obtain ⟨l', rfl, hl⟩ := has_some' h (by simp [hp])
  exact (readN_safe (by omega)).bind fun _ _ => .ret fun _ => False.elim

theorem VecS.check {ctx : Ctx F} {mv : MV F (Data F)} {p : Ptr F} {n : Nat} {k : MRes F (Data F) (Ptr F)} (h : p.Has n)
    (hk : ∀ l, p = some l → mv.data.n ≤ l.length → VecS p k) :
    VecS p (assertNotNull ctx mv p p <| checkNx ctx mv p n k) := by
  unfold assertNotNull checkNx
  split
  · exact .ret rfl
  · next hp =>
    split
    · exact .ret rfl
    · next hn =>
      obtain ⟨l', e, hl⟩ := has_some' h hp
      exact hk l' e (by omega)

theorem VecS.write {mv : MV F (Data F)} {l : List F} {vs : List F} (h : vs.length ≤ l.length) :
    VecS (some l) (writeN (some l) 0 vs >>- fun p => .ret (mv, .OK, p)) := by
  refine (writeN_safe (by omega)).bind ?_
  rintro q ⟨l'', rfl, hq⟩
  exact .ret (by simp [Ptr.SameLen, hq])

theorem calc_noUb {mv : MV F (Data F)} (h : InBounds mv) : calculateValues mv = .ret (calcValues mv) := guarded_ret h

end StateSpace

theorem StateSpace.safe : (StateSpace.model (F := F)).Safe (fun t => t = .uint64) (fun _ => True) InBounds (fun _ => True) where
  okOrError := StateSpace.eff.okOrError
  const _ _ := trivial
  step h e := dims.step h e
  dirty _ h := h
  trace _ h := h
  nx {mv} h := by
    have h : inBounds mv.data = true := h
    simp only [inBounds, Bool.and_eq_true, decide_eq_true_eq] at h
    exact h.1.2
  nz _ := Nat.le_refl _
  «calc» {ctx mv} _ h := by
    simp only [model, calc_noUb h]
    exact .ret
  get {ctx mv t vr p n i} _ hb h := by
    change Verif.GetS n _
    cases t <;> simp only [model]
    case float64 =>
      simp only [getFloat64, calc_noUb hb, Outcome.ret_bind]
      unfold assertNotNull
      split
      · exact .fail h
      next hp =>
      have hp : p.isNone = false := by revert hp; cases p.isNone <;> simp
      split
      · exact .put h
      all_goals first | exact .fail h | exact GetS.block h hp
    case uint64 =>
      unfold getUInt64
      refine .notNull h ?_
      gsafe h
    all_goals exact .stub h
  set {ctx mv t vr p n i} _ hb h _ he := by
    change Verif.SetS i _ _
    cases t <;> simp only [model]
    case float64 =>
      simp only [setFloat64, reduceCtorEq]
      unfold assertNotNull
      split
      · exact .fail
      next hp =>
      have hp : p.isNone = false := by revert hp; cases p.isNone <;> simp
      split
      case h_7 =>
        split
        · exact .fail
        · exact SetS.block h hp hb
      all_goals first | exact .fail | exact SetS.block h hp hb
    case uint64 =>
      unfold setUInt64
      refine .notNull ?_
      split
      · exact .fail
      · refine (h.read (he rfl)).bind fun v _ => ?_
        change Verif.SetS i _ _
        have fin : ∀ (d : Data F), Verif.SetS i True (assertNValues ctx mv 1 n (i + 1) (i + 1) <|
            (.ret ({ mv with data := d, isDirtyValues := true }, .OK, i + 1) : MRes F (Data F) Nat)) :=
          fun d => .nValues fun _ => .ret fun _ _ => rfl
        simp only
        repeat' split
        all_goals first | exact .fail | exact fin _
    all_goals exact .stub
  getB _ _ := BoolS.fail
  setB _ _ := .ret
  getX {ctx mv p n} _ hb h := by
    change VecS p _
    refine VecS.check h fun l e hl => ?_
    subst e
    rw [guarded_ret hb]
    exact VecS.write (by rw [length_elems]; exact hl)
  nominals {ctx mv p n} _ hb h := by
    refine (VecS.check h fun l e hl => ?_ : VecS p _).1
    subst e
    exact VecS.write (by rw [length_elems]; exact hl)
  setX {ctx mv p n} _ hb h := by
    refine (VecS.check h fun l e hl => ?_ : VecS p _).1
    subst e
    rw [guarded_ret hb]
    exact (readN_safe (by omega)).bind fun _ _ => .ret rfl
  getDX {ctx mv p n} _ hb h := by
    change VecS p _
    refine VecS.check h fun l e hl => ?_
    subst e
    rw [calc_noUb hb, Outcome.ret_bind]
    exact VecS.write (by rw [length_elems]; exact hl)
  getZ _ _ _ := VecS.stub
  partialD := .ret
  outD e := nomatch e
  activate := .ret
  getClock := .ret
  getInterval := .ret
  event e _ _ _ := by cases e; exact .ret fun _ => trivial
  room _ _ := trivial
  keep _ _ _ _ := trivial
  keepTrace _ _ := trivial

end
end Verif
