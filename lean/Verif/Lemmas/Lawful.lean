import Verif.Spec.Legal
import Verif.Lemmas.ModelEff

/-! # Which calls of the functions of `model.c` succeed -/

set_option linter.unusedSectionVars false
set_option linter.unusedSimpArgs false
set_option linter.unnecessarySeqFocus false

namespace Verif
variable {F D : Type} {m : Model F D}

section
variable {α β : Type} {ctx : Ctx F} {mv : MV F D}

theorem Ptr.at_read {q : Ptr α} {i : Nat} {a : α} : q.read i = .ret a ↔ q.At i a := by
  unfold Ptr.read Ptr.At
  cases q with
  | none => simp
  | some l => cases h : l[i]? <;> simp [h]

theorem Ptr.At.inj {q : Ptr α} {i : Nat} {a b : α} (h : q.At i a) (h' : q.At i b) : a = b := by
  have e := Ptr.at_read.2 h
  rw [Ptr.at_read.2 h'] at e
  cases e
  rfl

/-- A Get function of a variable that exists if `P` holds. -/
def GetOK (P : Prop) (q : Ptr α) (n i : Nat) (r : MRes F D (Ptr α × Nat)) : Prop :=
  r.All fun x => (x.2.1 = .OK ↔ P ∧ q ≠ none ∧ i < n) ∧ (x.2.1 = .OK → x.2.2.2 = i + 1 ∧ x.2.2.1 ≠ none)

theorem GetOK.fail {P : Prop} {q : Ptr α} {n i : Nat} {msg : String} {b : Ptr α × Nat} (h : ¬P) :
    GetOK P q n i (failM ctx mv msg b) := by simp [GetOK, failM, h]

theorem GetOK.notNull {P : Prop} {q : Ptr α} {n i : Nat} {b : Ptr α × Nat} {r : MRes F D (Ptr α × Nat)}
    (h : GetOK P q n i r) : GetOK P q n i (assertNotNull ctx mv q b r) := by
  unfold assertNotNull
  split
  · next hq => simp only [Option.isNone_iff_eq_none] at hq; simp [GetOK, failM, hq]
  · exact h

theorem GetOK.put {P : Prop} {q : Ptr α} {n i : Nat} {v : α} (h : P) : GetOK P q n i (putScalar ctx mv q n i v) := by
  unfold putScalar assertNValues
  split
  · have : ¬ i < n := by omega
    simp [GetOK, failM, this]
  · have : i < n := by omega
    cases q with
    | none => simp [Ptr.write, Outcome.bind, GetOK]
    | some l =>
      simp only [Ptr.write]
      split <;> simp [GetOK, h, this]

theorem GetOK.nValues {P : Prop} {q : Ptr α} {n i : Nat} {b : Ptr α × Nat} {r : MRes F D (Ptr α × Nat)}
    (h : i < n → GetOK P q n i r) : GetOK P q n i (assertNValues ctx mv 1 n i b r) := by
  unfold assertNValues
  split
  · have : ¬ i < n := by omega
    simp [GetOK, failM, this]
  · exact h (by omega)

theorem GetOK.write {P : Prop} {q : Ptr α} {n i : Nat} {v : α} (h : P) (hi : i < n) :
    GetOK P q n i (q.write i v >>- fun p => .ret (mv, .OK, (p, i + 1))) := by
  cases q with
  | none => simp [Ptr.write, Outcome.bind, GetOK]
  | some l =>
    simp only [Ptr.write]
    split <;> simp [GetOK, h, hi]

/-- A Set function of a variable that accepts the values with `P`. -/
def SetOK (P : α → Prop) (q : Ptr α) (n i : Nat) (r : MRes F D Nat) : Prop :=
  r.All fun x => (x.2.1 = .OK ↔ ∃ v, q.At i v ∧ i < n ∧ P v) ∧ (x.2.1 = .OK → x.2.2 = i + 1)

theorem SetOK.fail {P : α → Prop} {q : Ptr α} {n i j : Nat} {msg : String} (h : ∀ v, q.At i v → ¬P v) :
    SetOK P q n i (failM ctx mv msg j) := by
  simp only [SetOK, failM, Outcome.all_ret, reduceCtorEq, false_iff, false_implies, and_true]
  rintro ⟨v, h1, -, h2⟩
  exact h v h1 h2

theorem SetOK.notNull {P : α → Prop} {q : Ptr α} {n i j : Nat} {r : MRes F D Nat} (h : SetOK P q n i r) :
    SetOK P q n i (assertNotNull ctx mv q j r) := by
  unfold assertNotNull
  split
  · next hq =>
    simp only [Option.isNone_iff_eq_none] at hq
    exact .fail fun v h => by obtain ⟨l, e, -⟩ := h; rw [hq] at e; cases e
  · exact h

theorem SetOK.nValues {P : α → Prop} {q : Ptr α} {n i j : Nat} {r : MRes F D Nat} (h : i < n → SetOK P q n i r) :
    SetOK P q n i (assertNValues ctx mv 1 n i j r) := by
  unfold assertNValues
  split
  · simp only [SetOK, failM, Outcome.all_ret, reduceCtorEq, false_iff, false_implies, and_true]
    rintro ⟨v, -, h1, -⟩
    omega
  · exact h (by omega)

theorem SetOK.ret {P : α → Prop} {q : Ptr α} {n i : Nat} {v : α} (h : q.At i v) (hi : i < n) (hv : P v) :
    SetOK P q n i (.ret (mv, .OK, i + 1)) := by
  simp only [SetOK, Outcome.all_ret, true_iff, forall_const, and_true]
  exact ⟨v, h, hi, hv⟩

theorem SetOK.ub {P : α → Prop} {q : Ptr α} {n i : Nat} : SetOK (F := F) (D := D) P q n i .ub := by simp [SetOK]

theorem SetOK.read {P : α → Prop} {q : Ptr α} {n i : Nat} {f : α → MRes F D Nat}
    (h : ∀ v, q.At i v → SetOK P q n i (f v)) : SetOK P q n i (q.read i >>- f) :=
  Outcome.all_bind.2 fun v e => h v (Ptr.at_read.1 e)

theorem SetOK.take {P : α → Prop} {q : Ptr α} {n i : Nat} {upd : α → D} (h : ∀ v, q.At i v → P v) :
    SetOK P q n i (takeScalar ctx mv q n i upd) :=
  .nValues fun hi => .read fun v hv => .ret hv hi (h v hv)

theorem SetOK.fail' {P : α → Prop} {q : Ptr α} {n i j : Nat} {msg : String} {v : α} (hv : q.At i v) (h : ¬P v) :
    SetOK P q n i (failM ctx mv msg j) := .fail fun v' hv' => by cases hv.inj hv'; exact h

theorem SetOK.take' {P : α → Prop} {q : Ptr α} {n i : Nat} {upd : α → D} {v : α} (hv : q.At i v) (h : P v) :
    SetOK P q n i (takeScalar ctx mv q n i upd) := .take fun v' hv' => by cases hv.inj hv'; exact h

/-- A function on a vector of `k` elements. -/
def VecOK (k : Nat) (q : Ptr F) (n : Nat) (r : MRes F D (Ptr F)) : Prop := r.All fun x => (x.2.1 = .OK ↔ HasCount k q n)

theorem VecOK.stub {q : Ptr F} {n : Nat} : VecOK 0 q n (vecStub ctx mv q n) := by
  unfold vecStub assertSize
  split
  · next h => simp [VecOK, failM, HasCount, h]
  · next h => have : n = 0 := by omega
              simp [VecOK, HasCount, this]

theorem VecOK.put {q : Ptr F} {n k : Nat} {vs : List F} {mv' : MV F D} (h : vs.length = k) :
    0 < k → VecOK k q n (putVector ctx mv mv' q n vs) := by
  intro hk
  unfold putVector assertNotNull assertSize
  split
  · next hq =>
    simp only [Option.isNone_iff_eq_none] at hq
    simp only [VecOK, failM, HasCount, Outcome.all_ret, reduceCtorEq, false_iff]
    rintro ⟨rfl, h'⟩
    exact h' (by omega) hq
  · next hq =>
    simp only [Option.isNone_iff_eq_none] at hq
    split
    · next hn => rw [h] at hn; simp [VecOK, failM, HasCount, hn]
    · next hn =>
      refine Outcome.all_bind.2 fun q' _ => ?_
      rw [h] at hn
      have : n = k := by omega
      simp [HasCount, this, hq]

theorem VecOK.take {q : Ptr F} {n k : Nat} {f : List F → D} (hk : 0 < k) : VecOK k q n (takeVector ctx mv q n k f) := by
  unfold takeVector assertNotNull assertSize
  split
  · next hq =>
    simp only [Option.isNone_iff_eq_none] at hq
    simp only [VecOK, failM, HasCount, Outcome.all_ret, reduceCtorEq, false_iff]
    rintro ⟨rfl, h'⟩
    exact h' (by omega) hq
  · next hq =>
    simp only [Option.isNone_iff_eq_none] at hq
    split
    · next hn => simp [VecOK, failM, HasCount, hn]
    · next hn =>
      refine Outcome.all_bind.2 fun q' _ => ?_
      have : n = k := by omega
      simp [HasCount, this, hq]

end

/-- The functions of `model.c` succeed exactly for the arguments described by the profile. -/
structure Lawful (m : Model F D) (p : Profile F D) : Prop where
  «calc» : ∀ ctx mv, p.needs ctx → (m.calculateValues ctx mv).All fun x => x.2.1 = .OK
  get : ∀ t ctx mv r q n i, GetOK (p.declares t r) q n i (m.get t ctx mv r q n i)
  set : ∀ t ctx mv r q n i, SetOK (p.settable ctx.typ ctx.state t r) q n i (m.set t ctx mv r q n i)
  getStates : ∀ ctx mv q n, VecOK p.states q n (m.getContinuousStates ctx mv q n)
  nominals : ∀ ctx mv q n, VecOK p.states q n (m.getNominals ctx mv q n)
  setStates : ∀ ctx mv q n, VecOK p.states q n (m.setContinuousStates ctx mv q n)
  deriv : ∀ ctx mv q n, VecOK p.states q n (m.getDerivatives ctx mv q n)
  indicators : ∀ ctx mv q n, VecOK p.indicators q n (m.getEventIndicators ctx mv q n)
  numX : ∀ mv, m.numContinuousStates mv = p.states
  numZ : ∀ mv, m.numEventIndicators mv = p.indicators
  maxNX : m.maxNX = p.states
  maxNZ : m.maxNZ = p.indicators
  partialDeriv : ∀ ctx mv u k b, (m.getPartialDerivative ctx mv u k b).All fun x => (x.2.1 = .OK ↔ p.partialDerivatives = true)
  noOutDeriv : m.getOutputDerivative = none ↔ p.outputDerivatives = none
  outDeriv : ∀ f l, m.getOutputDerivative = some f → p.outputDerivatives = some l → ∀ ctx mv r o b,
    (f ctx mv r o b).All fun x => (x.2.1 = .OK ↔ r ∈ l ∧ o = 1)
  event : ∀ eu, m.eventUpdate = some eu → ∀ ctx mv, ¬p.over mv.data → (eu ctx mv).All fun x => x.2.1 = .OK
  activate : ∀ ctx mv r, (m.activateClock ctx mv r).All fun x => (x.2.1 = .OK ↔ p.clocks = true)
  getClock : ∀ ctx mv r b, (m.getClock ctx mv r b).All fun x => (x.2.1 = .OK ↔ r ∈ p.outputClocks)
  interval : ∀ ctx mv r a b, (m.getInterval ctx mv r a b).All fun x => (x.2.1 = .OK ↔ r ∈ p.intervals)
  partition : ∀ ctx mv r t, (m.activateModelPartition ctx mv r t).All fun x => (x.2.1 = .OK ↔ r ∈ p.partitions)

variable [Arith F]

section
variable {typ : IType} {mode : Mode}
@[simp] theorem Access.allows_never : Access.never.allows typ mode ↔ False := Iff.rfl
@[simp] theorem Access.allows_always : Access.always.allows typ mode ↔ True := Iff.rfl
@[simp] theorem Access.allows_start : Access.start.allows typ mode ↔ mode = .instantiated ∨ mode = .initializationMode := Iff.rfl
@[simp] theorem Access.allows_state : Access.state.allows typ mode ↔
    mode = .instantiated ∨ mode = .initializationMode ∨ mode = .continuousTimeMode ∨ mode = .eventMode := Iff.rfl
@[simp] theorem Access.allows_fixed : Access.fixed.allows typ mode ↔
    (typ = .modelExchange → mode = .instantiated ∨ mode = .initializationMode) := Iff.rfl
@[simp] theorem Access.allows_discrete : Access.discrete.allows typ mode ↔
    (typ = .modelExchange → mode = .instantiated ∨ mode = .initializationMode ∨ mode = .eventMode) := Iff.rfl
end

/-- Split an accessor into its cases. -/
macro "lawful" : tactic =>
  `(tactic| repeat' (first
    | with_reducible refine GetOK.fail ?_
    | with_reducible refine GetOK.put ?_
    | with_reducible refine GetOK.notNull ?_
    | with_reducible refine SetOK.fail' (by assumption) ?_
    | with_reducible refine SetOK.take' (by assumption) ?_
    | with_reducible refine SetOK.ret (by assumption) (by assumption) ?_
    | with_reducible refine GetOK.write ?_ (by assumption)
    | (with_reducible refine GetOK.nValues ?_) <;> intro _
    | with_reducible refine SetOK.fail ?_
    | with_reducible refine SetOK.take ?_
    | with_reducible refine SetOK.notNull ?_
    | with_reducible exact SetOK.ub
    | (with_reducible refine SetOK.nValues ?_) <;> intro _
    | (with_reducible refine SetOK.read ?_) <;> intro _ _
    | with_reducible exact VecOK.stub
    | split))

theorem Lawful.dahlquist : Lawful (Dahlquist.model (F := F)) (.dahlquist) where
  «calc» ctx mv h := by
    simp [Dahlquist.model]
  get t ctx mv r q n i := by
    cases t <;> simp only [Dahlquist.model, Dahlquist.getFloat64, getStub] <;> lawful <;>
      simp_all [Profile.declares, Profile.dahlquist]
  set t ctx mv r q n i := by
    cases t <;> simp only [Dahlquist.model, Dahlquist.setFloat64, setStub] <;> lawful <;>
      simp_all [Profile.settable, Profile.dahlquist, or_imp] <;> grind
  getStates ctx mv q n := VecOK.put rfl Nat.one_pos
  nominals ctx mv q n := VecOK.put rfl Nat.one_pos
  setStates ctx mv q n := VecOK.take Nat.one_pos
  deriv ctx mv q n := VecOK.put rfl Nat.one_pos
  indicators ctx mv q n := VecOK.stub
  numX _ := rfl
  numZ _ := rfl
  maxNX := rfl
  maxNZ := rfl
  partialDeriv ctx mv u k b := by simp [Dahlquist.model, partialStub, failM, Profile.dahlquist]
  noOutDeriv := by simp [Dahlquist.model, Profile.dahlquist]
  outDeriv f l e := by
    simp [Dahlquist.model] at e
  event eu e := by
    simp [Dahlquist.model] at e
  activate ctx mv r := by simp [Dahlquist.model, Profile.dahlquist]
  getClock ctx mv r b := by simp [Dahlquist.model, Profile.dahlquist]
  interval ctx mv r a b := by simp [Dahlquist.model, Profile.dahlquist]
  partition ctx mv r t := by simp [Dahlquist.model, Profile.dahlquist]

theorem Lawful.vanDerPol : Lawful (VanDerPol.model (F := F)) (.vanDerPol) where
  «calc» ctx mv h := by
    simp [VanDerPol.model]
  get t ctx mv r q n i := by
    cases t <;> simp only [VanDerPol.model, VanDerPol.getFloat64, getStub] <;> lawful <;>
      simp_all [Profile.declares, Profile.vanDerPol]
  set t ctx mv r q n i := by
    cases t <;> simp only [VanDerPol.model, VanDerPol.setFloat64, setStub] <;> lawful <;>
      simp_all [Profile.settable, Profile.vanDerPol, or_imp] <;> grind
  getStates ctx mv q n := VecOK.put rfl Nat.two_pos
  nominals ctx mv q n := VecOK.put rfl Nat.two_pos
  setStates ctx mv q n := VecOK.take Nat.two_pos
  deriv ctx mv q n := VecOK.put rfl Nat.two_pos
  indicators ctx mv q n := VecOK.stub
  numX _ := rfl
  numZ _ := rfl
  maxNX := rfl
  maxNZ := rfl
  partialDeriv ctx mv u k b := by simp [VanDerPol.model, VanDerPol.getPartialDerivative, Profile.vanDerPol]
  noOutDeriv := by simp [VanDerPol.model, Profile.vanDerPol]
  outDeriv f l e := by
    simp [VanDerPol.model] at e
  event eu e := by
    simp [VanDerPol.model] at e
  activate ctx mv r := by simp [VanDerPol.model, Profile.vanDerPol]
  getClock ctx mv r b := by simp [VanDerPol.model, Profile.vanDerPol]
  interval ctx mv r a b := by simp [VanDerPol.model, Profile.vanDerPol]
  partition ctx mv r t := by simp [VanDerPol.model, Profile.vanDerPol]

theorem Lawful.bouncingBall : Lawful (BouncingBall.model (F := F)) (.bouncingBall) where
  «calc» ctx mv h := by
    simp [BouncingBall.model]
  get t ctx mv r q n i := by
    cases t <;> simp only [BouncingBall.model, BouncingBall.getFloat64, getStub] <;> lawful <;>
      simp_all [Profile.declares, Profile.bouncingBall]
  set t ctx mv r q n i := by
    cases t <;> simp only [BouncingBall.model, BouncingBall.setFloat64, setStub] <;> lawful <;>
      simp_all [Profile.settable, Profile.bouncingBall, or_imp, BouncingBall.stateSettable] <;> grind
  getStates ctx mv q n := VecOK.put rfl Nat.two_pos
  nominals ctx mv q n := VecOK.put rfl Nat.two_pos
  setStates ctx mv q n := VecOK.take Nat.two_pos
  deriv ctx mv q n := VecOK.put rfl Nat.two_pos
  indicators ctx mv q n := VecOK.put rfl Nat.one_pos
  numX _ := rfl
  numZ _ := rfl
  maxNX := rfl
  maxNZ := rfl
  partialDeriv ctx mv u k b := by simp [BouncingBall.model, partialStub, failM, Profile.bouncingBall]
  noOutDeriv := by simp [BouncingBall.model, Profile.bouncingBall]
  outDeriv f l e := by
    simp only [BouncingBall.model, Option.some.injEq, Profile.bouncingBall] at e
    subst e
    rintro rfl_ ctx mv r o b
    cases rfl_
    unfold BouncingBall.getOutputDerivative
    split
    · simp_all [failM]
    · simp only
      split <;> simp_all [failM]
  event eu e := by
    simp only [BouncingBall.model, Option.some.injEq] at e
    subst e
    intro ctx mv _
    simp [BouncingBall.eventUpdate]
  activate ctx mv r := by simp [BouncingBall.model, Profile.bouncingBall]
  getClock ctx mv r b := by simp [BouncingBall.model, Profile.bouncingBall]
  interval ctx mv r a b := by simp [BouncingBall.model, Profile.bouncingBall]
  partition ctx mv r t := by simp [BouncingBall.model, Profile.bouncingBall]

theorem Lawful.roberts : Lawful (Roberts.model (F := F)) (.roberts) where
  «calc» ctx mv h := by
    simp [Roberts.model]
  get t ctx mv r q n i := by
    cases t <;> simp only [Roberts.model, Roberts.getFloat64, Roberts.getBoolean, getStub] <;> lawful <;>
      simp_all [Profile.declares, Profile.roberts]
  set t ctx mv r q n i := by
    cases t <;> simp only [Roberts.model, Roberts.setFloat64, Roberts.setBoolean, setStub] <;> lawful <;>
      simp_all [Profile.settable, Profile.roberts, or_imp] <;> grind
  getStates ctx mv q n := VecOK.put rfl Nat.two_pos
  nominals ctx mv q n := VecOK.put rfl Nat.two_pos
  setStates ctx mv q n := VecOK.take Nat.two_pos
  deriv ctx mv q n := VecOK.put rfl Nat.two_pos
  indicators ctx mv q n := VecOK.put rfl Nat.two_pos
  numX _ := rfl
  numZ _ := rfl
  maxNX := rfl
  maxNZ := rfl
  partialDeriv ctx mv u k b := by simp [Roberts.model, Roberts.getPartialDerivative, Profile.roberts]
  noOutDeriv := by simp [Roberts.model, Profile.roberts]
  outDeriv f l e := by
    simp [Roberts.model] at e
  event eu e := by
    simp [Roberts.model] at e
  activate ctx mv r := by simp [Roberts.model, Profile.roberts]
  getClock ctx mv r b := by simp [Roberts.model, Profile.roberts]
  interval ctx mv r a b := by simp [Roberts.model, Profile.roberts]
  partition ctx mv r t := by simp [Roberts.model, Profile.roberts]

theorem Lawful.stair : Lawful (Stair.model (F := F)) (.stair) where
  «calc» ctx mv h := by
    simp [Stair.model]
  get t ctx mv r q n i := by
    cases t <;> simp only [Stair.model, Stair.getFloat64, Stair.getInt32, getStub] <;> lawful <;>
      simp_all [Profile.declares, Profile.stair]
  set t ctx mv r q n i := by
    cases t <;> simp only [Stair.model, Stair.setInt32, setStub] <;> lawful <;>
      simp_all [Profile.settable, Profile.stair, or_imp] <;> grind
  getStates ctx mv q n := VecOK.stub
  nominals ctx mv q n := VecOK.stub
  setStates ctx mv q n := VecOK.stub
  deriv ctx mv q n := VecOK.stub
  indicators ctx mv q n := VecOK.stub
  numX _ := rfl
  numZ _ := rfl
  maxNX := rfl
  maxNZ := rfl
  partialDeriv ctx mv u k b := by simp [Stair.model, partialStub, failM, Profile.stair]
  noOutDeriv := by simp [Stair.model, Profile.stair]
  outDeriv f l e := by
    simp [Stair.model] at e
  event eu e := by
    simp only [Stair.model, Option.some.injEq] at e
    subst e
    intro ctx mv h
    simp only [Profile.stair, Int.not_le] at h
    unfold Stair.eventUpdate
    refine Outcome.all_bind.2 ?_
    have key : ∀ mv' : MV F Stair.Data, mv'.data.counter ≤ 10 → Outcome.All (if mv'.data.counter > 10 then
        failM ctx mv' "Variable \"counter\" cannot be incremented for values >= 10." ()
      else .ret ({ mv' with
        valuesChanged := false, nominalsChanged := false,
        terminateSimulation := decide (mv'.data.counter ≥ 10), nextEventTimeDefined := true }, .OK, ()))
        fun x => x.2.1 = .OK := by
      intro mv' h'
      rw [if_neg (by omega)]
      simp
    split
    · split
      · simp
      · exact Outcome.all_ret.2 (key _ (by simp only; omega))
    · exact Outcome.all_ret.2 (key _ (by omega))
  activate ctx mv r := by simp [Stair.model, Profile.stair]
  getClock ctx mv r b := by simp [Stair.model, Profile.stair]
  interval ctx mv r a b := by simp [Stair.model, Profile.stair]
  partition ctx mv r t := by simp [Stair.model, Profile.stair]

theorem Lawful.resource {v : Bool} {fs : Resource.FileSystem} : Lawful (Resource.model (F := F) v fs) (.resource v fs) where
  «calc» ctx mv h := by
    obtain ⟨path, b, e, eb⟩ := h
    simp only [Resource.model, Resource.calculateValues, e, Outcome.ret_bind, eb, Outcome.all_ret]
  get t ctx mv r q n i := by
    cases t <;> simp only [Resource.model, Resource.getFloat64, Resource.getInt32, getStub] <;> first
      | (refine GetOK.fail ?_; simp [Profile.declares, Profile.resource]; done)
      | (refine GetOK.notNull (Outcome.all_bind.2 ?_)
         rintro ⟨mv, s, b⟩ -
         show GetOK _ _ _ _ _
         lawful <;> simp_all [Profile.declares, Profile.resource])
  set t ctx mv r q n i := by
    cases t <;> simp only [Resource.model, setStub] <;> lawful <;>
      simp_all [Profile.settable, Profile.resource, or_imp]
  getStates ctx mv q n := VecOK.stub
  nominals ctx mv q n := VecOK.stub
  setStates ctx mv q n := VecOK.stub
  deriv ctx mv q n := VecOK.stub
  indicators ctx mv q n := VecOK.stub
  numX _ := rfl
  numZ _ := rfl
  maxNX := rfl
  maxNZ := rfl
  partialDeriv ctx mv u k b := by simp [Resource.model, partialStub, failM, Profile.resource]
  noOutDeriv := by simp [Resource.model, Profile.resource]
  outDeriv f l e := by
    simp [Resource.model] at e
  event eu e := by
    simp [Resource.model] at e
  activate ctx mv r := by simp [Resource.model, Profile.resource]
  getClock ctx mv r b := by simp [Resource.model, Profile.resource]
  interval ctx mv r a b := by simp [Resource.model, Profile.resource]
  partition ctx mv r t := by simp [Resource.model, Profile.resource]

theorem Lawful.clocks : Lawful (Clocks.model (F := F)) (.clocksFMU) where
  «calc» ctx mv h := by
    simp [Clocks.model]
  get t ctx mv r q n i := by
    cases t <;> simp only [Clocks.model, Clocks.getFloat64, Clocks.getInt32, Clocks.intVar, getStub] <;> lawful <;>
      simp_all [Profile.declares, Profile.clocksFMU]
    all_goals split at *
    all_goals simp_all
  set t ctx mv r q n i := by
    cases t <;> simp only [Clocks.model, Clocks.setInt32, setStub] <;> lawful <;>
      simp_all [Profile.settable, Profile.clocksFMU, or_imp]
  getStates ctx mv q n := VecOK.stub
  nominals ctx mv q n := VecOK.stub
  setStates ctx mv q n := VecOK.stub
  deriv ctx mv q n := VecOK.stub
  indicators ctx mv q n := VecOK.stub
  numX _ := rfl
  numZ _ := rfl
  maxNX := rfl
  maxNZ := rfl
  partialDeriv ctx mv u k b := by simp [Clocks.model, partialStub, failM, Profile.clocksFMU]
  noOutDeriv := by simp [Clocks.model, Profile.clocksFMU]
  outDeriv f l e := by
    simp [Clocks.model] at e
  event eu e := by
    simp only [Clocks.model, Option.some.injEq] at e
    subst e
    simp
  activate ctx mv r := by simp [Clocks.model, Profile.clocksFMU]
  getClock ctx mv r b := by 
    simp only [Clocks.model, Clocks.getClock]
    split <;> simp_all [Profile.clocksFMU, failM]
  interval ctx mv r a b := by 
    simp only [Clocks.model, Clocks.getInterval]
    split
    · split <;> simp [Profile.clocksFMU]
    · simp_all [Profile.clocksFMU, failM]
  partition ctx mv r t := by 
    simp only [Clocks.model, Clocks.activateModelPartition]
    split
    · refine Outcome.all_bind.2 fun _ _ => ?_
      simp [Profile.clocksFMU]
    · refine Outcome.all_bind.2 fun _ _ => ?_
      simp [Profile.clocksFMU]
    · refine Outcome.all_bind.2 fun _ _ => ?_
      simp [Profile.clocksFMU]
    · simp_all [Profile.clocksFMU, failM]

set_option maxHeartbeats 1000000 in
theorem Feedthrough.get_ok_false (t : VType) (ctx : Ctx F) (mv : MV F (Feedthrough.Data F)) (r : Nat) (q : Ptr (t.Val F)) (n i : Nat) :
    GetOK ((Profile.feedthrough (F := F) false).declares t r) q n i ((Feedthrough.model false).get t ctx mv r q n i) := by
  cases t <;> simp only [Feedthrough.model, Feedthrough.getFloat32, Feedthrough.getFloat64, Feedthrough.getInt8, Feedthrough.getUInt8, Feedthrough.getInt16, Feedthrough.getUInt16, Feedthrough.getInt32, Feedthrough.getUInt32, Feedthrough.getInt64, Feedthrough.getUInt64, Feedthrough.getBoolean, Feedthrough.getString, Feedthrough.getBinary] <;> lawful <;>
      simp_all [Profile.declares, Profile.feedthrough, Profile.feedthroughVars]

set_option maxHeartbeats 1000000 in
theorem Feedthrough.set_ok_false (t : VType) (ctx : Ctx F) (mv : MV F (Feedthrough.Data F)) (r : Nat) (q : Ptr (t.Val F)) (n i : Nat) :
    SetOK ((Profile.feedthrough false).settable ctx.typ ctx.state t r) q n i ((Feedthrough.model false).set t ctx mv r q n i) := by
  cases t <;> simp only [Feedthrough.model, Feedthrough.setFloat32, Feedthrough.setFloat64, Feedthrough.setInt8, Feedthrough.setUInt8, Feedthrough.setInt16, Feedthrough.setUInt16, Feedthrough.setInt32, Feedthrough.setUInt32, Feedthrough.setInt64, Feedthrough.setUInt64, Feedthrough.setBoolean, Feedthrough.setString, Feedthrough.setBinary] <;> lawful <;>
      simp_all [Profile.settable, Profile.feedthrough, or_imp, Profile.feedthroughVars, Profile.feedthroughAdmits, Feedthrough.maxLen,
        Feedthrough.eventSettable, Feedthrough.fixedSettable] <;> grind

set_option maxHeartbeats 1000000 in
theorem Feedthrough.get_ok_true (t : VType) (ctx : Ctx F) (mv : MV F (Feedthrough.Data F)) (r : Nat) (q : Ptr (t.Val F)) (n i : Nat) :
    GetOK ((Profile.feedthrough (F := F) true).declares t r) q n i ((Feedthrough.model true).get t ctx mv r q n i) := by
  cases t <;> simp only [Feedthrough.model, Feedthrough.getFloat32, Feedthrough.getFloat64, Feedthrough.getInt8, Feedthrough.getUInt8, Feedthrough.getInt16, Feedthrough.getUInt16, Feedthrough.getInt32, Feedthrough.getUInt32, Feedthrough.getInt64, Feedthrough.getUInt64, Feedthrough.getBoolean, Feedthrough.getString, Feedthrough.getBinary] <;> lawful <;>
      simp_all [Profile.declares, Profile.feedthrough, Profile.feedthroughVars]

set_option maxHeartbeats 1000000 in
theorem Feedthrough.set_ok_true (t : VType) (ctx : Ctx F) (mv : MV F (Feedthrough.Data F)) (r : Nat) (q : Ptr (t.Val F)) (n i : Nat) :
    SetOK ((Profile.feedthrough true).settable ctx.typ ctx.state t r) q n i ((Feedthrough.model true).set t ctx mv r q n i) := by
  cases t <;> simp only [Feedthrough.model, Feedthrough.setFloat32, Feedthrough.setFloat64, Feedthrough.setInt8, Feedthrough.setUInt8, Feedthrough.setInt16, Feedthrough.setUInt16, Feedthrough.setInt32, Feedthrough.setUInt32, Feedthrough.setInt64, Feedthrough.setUInt64, Feedthrough.setBoolean, Feedthrough.setString, Feedthrough.setBinary] <;> lawful <;>
      simp_all [Profile.settable, Profile.feedthrough, or_imp, Profile.feedthroughVars, Profile.feedthroughAdmits, Feedthrough.maxLen,
        Feedthrough.eventSettable, Feedthrough.fixedSettable] <;> grind

theorem Lawful.feedthrough {v : Bool} : Lawful (Feedthrough.model (F := F) v) (.feedthrough v) where
  «calc» ctx mv h := by
    simp [Feedthrough.model]
  get t ctx mv r q n i := by
    cases v
    · exact Feedthrough.get_ok_false t ctx mv r q n i
    · exact Feedthrough.get_ok_true t ctx mv r q n i
  set t ctx mv r q n i := by
    cases v
    · exact Feedthrough.set_ok_false t ctx mv r q n i
    · exact Feedthrough.set_ok_true t ctx mv r q n i
  getStates ctx mv q n := VecOK.stub
  nominals ctx mv q n := VecOK.stub
  setStates ctx mv q n := VecOK.stub
  deriv ctx mv q n := VecOK.stub
  indicators ctx mv q n := VecOK.stub
  numX _ := rfl
  numZ _ := rfl
  maxNX := rfl
  maxNZ := rfl
  partialDeriv ctx mv u k b := by simp [Feedthrough.model, partialStub, failM, Profile.feedthrough]
  noOutDeriv := by simp [Feedthrough.model, Profile.feedthrough]
  outDeriv f l e := by
    simp [Feedthrough.model] at e
  event eu e := by
    simp only [Feedthrough.model, Option.some.injEq] at e
    subst e
    intro ctx mv _
    simp [Feedthrough.eventUpdate]
  activate ctx mv r := by simp [Feedthrough.model, Profile.feedthrough]
  getClock ctx mv r b := by simp [Feedthrough.model, Profile.feedthrough]
  interval ctx mv r a b := by simp [Feedthrough.model, Profile.feedthrough]
  partition ctx mv r t := by simp [Feedthrough.model, Profile.feedthrough]

end Verif
