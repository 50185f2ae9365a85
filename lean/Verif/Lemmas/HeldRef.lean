import Verif.Lemmas.Held
import Verif.Lemmas.LensReads

/-! # The parameters and inputs of the Reference FMUs are held -/

set_option linter.unusedSectionVars false

namespace Verif
variable {F D V : Type} {m : Model F D}

theorem Model.fixed_intro {sel : D → V}
    (hcalc : ∀ ctx mv, KeepR sel mv.data (m.calculateValues ctx mv))
    (get : ∀ t ctx mv vr p n i, KeepR sel mv.data (m.get t ctx mv vr p n i))
    (event : ∀ eu, m.eventUpdate = some eu → ∀ ctx mv, KeepR sel mv.data (eu ctx mv))
    (getStates : ∀ ctx mv p n, KeepR sel mv.data (m.getContinuousStates ctx mv p n))
    (nominals : ∀ ctx mv p n, KeepR sel mv.data (m.getNominals ctx mv p n))
    (setStates : ∀ ctx mv p n, KeepR sel mv.data (m.setContinuousStates ctx mv p n))
    (deriv : ∀ ctx mv p n, KeepR sel mv.data (m.getDerivatives ctx mv p n))
    (ind : ∀ ctx mv p n, KeepR sel mv.data (m.getEventIndicators ctx mv p n))
    (pd : ∀ ctx mv u k o, KeepR sel mv.data (m.getPartialDerivative ctx mv u k o))
    (od : ∀ g, m.getOutputDerivative = some g → ∀ ctx mv vr o v, KeepR sel mv.data (g ctx mv vr o v))
    (act : ∀ ctx mv vr, KeepR sel mv.data (m.activateClock ctx mv vr))
    (gc : ∀ ctx mv vr b, KeepR sel mv.data (m.getClock ctx mv vr b))
    (gi : ∀ ctx mv vr i q, KeepR sel mv.data (m.getInterval ctx mv vr i q))
    (part : ∀ ctx mv vr t, KeepR sel mv.data (m.activateModelPartition ctx mv vr t)) :
    ∀ {f ctx mv mv' s}, f ≠ .set → MStep m f ctx mv mv' s → sel mv'.data = sel mv.data := by
  intro f ctx mv mv' s hf h
  cases h with
  | «calc» e => exact hcalc _ _ _ e
  | get e => exact get _ _ _ _ _ _ _ _ e
  | set e => exact absurd rfl hf
  | event h e => exact event _ h _ _ _ e
  | getStates e => exact getStates _ _ _ _ _ e
  | nominals e => exact nominals _ _ _ _ _ e
  | setStates e => exact setStates _ _ _ _ _ e
  | deriv e => exact deriv _ _ _ _ _ e
  | indicators e => exact ind _ _ _ _ _ e
  | partialDeriv e => exact pd _ _ _ _ _ _ e
  | outDeriv h e => exact od _ h _ _ _ _ _ _ e
  | activate e => exact act _ _ _ _ e
  | getClock e => exact gc _ _ _ _ _ e
  | getInterval e => exact gi _ _ _ _ _ _ e
  | partition e => exact part _ _ _ _ _ e

variable [Arith F] {t t' : VType} {r r' : Nat}

/-- A successful setter call stores the element at the index of the array and advances the index by one. -/
def HoldR (sel : D → t.Val F) (r : Nat) (t' : VType) (r' : Nat) (d : D) (p : Ptr (t'.Val F)) (i : Nat)
    (x : MRes F D Nat) : Prop :=
  ∀ mv' j, x = .ret (mv', .OK, j) →
    ∃ v, p.read i = .ret v ∧ j = i + 1 ∧ sel mv'.data = assign t r (sel d) ⟨t', r', v⟩

section
variable {sel : D → t.Val F} {ctx : Ctx F} {mv : MV F D} {p : Ptr (t'.Val F)} {d : D} {n i : Nat} {x : MRes F D Nat}

theorem HoldR.fail {msg : String} {b : Nat} : HoldR sel r t' r' d p i (failM ctx mv msg b) := by
  intro mv' j e
  unfold failM logError at e
  split at e <;> cases e
theorem HoldR.ub : HoldR (F := F) sel r t' r' d p i .ub := by intro _ _ e; cases e
theorem HoldR.setStub {t₁ vr q n j} : HoldR sel r t' r' d p i (Verif.setStub t₁ ctx mv vr q n j) := HoldR.fail
theorem HoldR.notNull {α : Type} {q : Option α} {b : Nat} (h : HoldR sel r t' r' d p i x) :
    HoldR sel r t' r' d p i (assertNotNull ctx mv q b x) := by
  unfold assertNotNull; split
  · exact HoldR.fail
  · exact h
theorem HoldR.nValues {e nv k b : Nat} (h : HoldR sel r t' r' d p i x) :
    HoldR sel r t' r' d p i (assertNValues ctx mv e nv k b x) := by
  unfold assertNValues; split
  · exact HoldR.fail
  · exact h
theorem HoldR.read {k : t'.Val F → MRes F D Nat} (h : ∀ v, p.read i = .ret v → HoldR sel r t' r' d p i (k v)) :
    HoldR sel r t' r' d p i (p.read i >>- k) := by
  intro mv' j e
  obtain ⟨v, e1, e2⟩ := Outcome.bind_eq_ret.1 e
  exact h v e1 _ _ e2
theorem HoldR.ret {v : t'.Val F} (hv : p.read i = .ret v) {s : Status}
    (h : sel mv.data = assign t r (sel d) ⟨t', r', v⟩) :
    HoldR sel r t' r' d p i (.ret (mv, s, i + 1)) := by
  intro mv' j e
  cases e
  exact ⟨v, hv, rfl, h⟩
theorem HoldR.take {f : t'.Val F → D} (h : ∀ v, sel (f v) = assign t r (sel d) ⟨t', r', v⟩) :
    HoldR sel r t' r' d p i (takeScalar ctx mv p n i f) :=
  HoldR.nValues (HoldR.read fun v hv => HoldR.ret hv (h v))
end

/-- Prove `HoldR` of a setter. -/
macro "mhold" : tactic =>
  `(tactic| repeat' (first
    | with_reducible exact HoldR.setStub
    | with_reducible exact HoldR.fail
    | with_reducible exact HoldR.ub
    | with_reducible refine HoldR.notNull ?_
    | with_reducible refine HoldR.nValues ?_
    | with_reducible refine HoldR.take fun _ => ?_
    | (with_reducible apply HoldR.read) <;> intro _ hv
    | (with_reducible refine HoldR.ret (by assumption) ?_)
    | rfl
    | contradiction
    | split))

/-- Prove that only the setters change a quantity; all definitions are unfolded. -/
macro "hold_fixed" : tactic => `(tactic| (
  apply Model.fixed_intro
  case get =>
    intro t ctx mv vr p n i
    cases t <;> simp only [BouncingBall.model, BouncingBall.getFloat64, Dahlquist.model, Dahlquist.getFloat64,
      VanDerPol.model, VanDerPol.getFloat64, Roberts.model, Roberts.getFloat64, Roberts.getBoolean,
      Clocks.model, Clocks.getInt32, Clocks.getFloat64,
      Feedthrough.model, Feedthrough.getFloat32, Feedthrough.getFloat64,
      Feedthrough.getInt8, Feedthrough.getUInt8, Feedthrough.getInt16, Feedthrough.getUInt16,
      Feedthrough.getInt32, Feedthrough.getUInt32, Feedthrough.getInt64, Feedthrough.getUInt64,
      Feedthrough.getBoolean, Feedthrough.getString, Feedthrough.getBinary] <;> mfixed <;> exact (Lens.roberts_calc _).1
  case event =>
    intro eu h; cases h <;> intros <;>
      simp only [BouncingBall.eventUpdate, Feedthrough.eventUpdate] <;> mfixed
  case od => intro g h; cases h <;> intros <;> simp only [BouncingBall.getOutputDerivative] <;> mfixed
  all_goals
    intros
    simp only [BouncingBall.model, Dahlquist.model, VanDerPol.model, VanDerPol.getPartialDerivative, Roberts.model,
      Roberts.getPartialDerivative, Clocks.model, Clocks.activateModelPartition, Clocks.getClock, Clocks.getInterval, Feedthrough.model]
    (mfixed <;> exact (Lens.roberts_calc _).1)))

macro "hold_set" : tactic => `(tactic| (
  intro t' r' ctx mv p n i
  cases t' <;> simp only [BouncingBall.model, BouncingBall.setFloat64, Dahlquist.model, Dahlquist.setFloat64, VanDerPol.model,
      VanDerPol.setFloat64, Roberts.model, Roberts.setFloat64, Roberts.setBoolean, Clocks.model, Clocks.setInt32,
      Feedthrough.model, Feedthrough.setFloat32, Feedthrough.setFloat64, Feedthrough.setInt8,
      Feedthrough.setUInt8, Feedthrough.setInt16, Feedthrough.setUInt16, Feedthrough.setInt32, Feedthrough.setUInt32,
      Feedthrough.setInt64, Feedthrough.setUInt64, Feedthrough.setBoolean, Feedthrough.setString, Feedthrough.setBinary] <;> mhold))

namespace Holder

def of {m : Model F D} {t : VType} {r : Nat} {start : t.Val F} (sel : D → t.Val F)
    (fixed : ∀ {f ctx mv mv' s}, f ≠ .set → MStep m f ctx mv mv' s → sel mv'.data = sel mv.data)
    (set : ∀ t' r' ctx mv p n i, HoldR sel r t' r' mv.data p i (m.set t' ctx mv r' p n i))
    (hs : ∀ ctx mv, sel (m.setStartValues ctx mv).data = start) : Holder m t r start :=
  ⟨sel, fixed, fun e => set _ _ _ _ _ _ _ _ _ e, hs⟩

def bouncingBall_e : Holder (BouncingBall.model : Model F _) .float64 6 (Arith.lit (7 / 10)) :=
  of (fun d => d.e) (by hold_fixed) (by hold_set) fun _ _ => rfl

def dahlquist_k : Holder (Dahlquist.model : Model F _) .float64 3 (Arith.lit 1) :=
  of (fun d => d.k) (by hold_fixed) (by hold_set) fun _ _ => rfl

def vanDerPol_mu : Holder (VanDerPol.model : Model F _) .float64 5 (Arith.lit 1) :=
  of (fun d => d.mu) (by hold_fixed) (by hold_set) fun _ _ => rfl

def roberts_dae : Holder (Roberts.model : Model F _) .boolean 1 false :=
  of (fun d => d.dae) (by hold_fixed) (by hold_set) fun _ _ => rfl

theorem feedthrough_fixed_upd {v3 : Bool} : ∀ {f ctx mv mv' s}, f ≠ .set → MStep (Feedthrough.model v3 (F := F)) f ctx mv mv' s →
    Feedthrough.upd mv'.data = Feedthrough.upd mv.data := by hold_fixed

theorem feedthrough_keep {V : Type} (sel : Feedthrough.Data F → V) (h : ∀ d, sel (Feedthrough.upd d) = sel d) {v3 : Bool} :
    ∀ {f ctx mv mv' s}, f ≠ .set → MStep (Feedthrough.model v3 (F := F)) f ctx mv mv' s → sel mv'.data = sel mv.data :=
  fun hf e => by rw [← h, feedthrough_fixed_upd hf e, h]

variable {v3 : Bool}

def feedthrough_fixed : Holder (Feedthrough.model v3 : Model F _) .float64 5 (Arith.lit 0) :=
  of (fun d => d.fixedParam) (feedthrough_keep _ fun _ => rfl) (by hold_set) fun _ _ => rfl

def feedthrough_tunable : Holder (Feedthrough.model v3 : Model F _) .float64 6 (Arith.lit 0) :=
  of (fun d => d.tunableParam) (feedthrough_keep _ fun _ => rfl) (by hold_set) fun _ _ => rfl

def feedthrough_f64cont : Holder (Feedthrough.model v3 : Model F _) .float64 7 (Arith.lit 0) :=
  of (fun d => d.f64ContIn) (feedthrough_keep _ fun _ => rfl) (by hold_set) fun _ _ => rfl

def feedthrough_f64disc : Holder (Feedthrough.model v3 : Model F _) .float64 9 (Arith.lit 0) :=
  of (fun d => d.f64DiscIn) (feedthrough_keep _ fun _ => rfl) (by hold_set) fun _ _ => rfl

def feedthrough_int32 : Holder (Feedthrough.model v3 : Model F _) .int32 19 (0 : Int) :=
  of (fun d => d.int32In) (feedthrough_keep _ fun _ => rfl) (by hold_set) fun _ _ => rfl

def feedthrough_boolean : Holder (Feedthrough.model v3 : Model F _) .boolean 27 false :=
  of (fun d => d.boolIn) (feedthrough_keep _ fun _ => rfl) (by hold_set) fun _ _ => rfl

def feedthrough_string : Holder (Feedthrough.model v3 : Model F _) .string 29 (some (Feedthrough.ascii "Set me!")) :=
  of (fun d => some d.strIn) (feedthrough_keep (fun d => some d.strIn) fun _ => rfl) (by hold_set) fun _ _ => rfl

def feedthrough_enum2 : Holder (Feedthrough.model false : Model F _) .int32 33 (1 : Int) :=
  of (fun d => d.enumIn) (feedthrough_keep _ fun _ => rfl) (by hold_set) fun _ _ => rfl

def feedthrough_f32cont : Holder (Feedthrough.model true : Model F _) .float32 1 (0 : UInt32) :=
  of (fun d => d.f32ContIn) (feedthrough_keep _ fun _ => rfl) (by hold_set) fun _ _ => rfl

def feedthrough_f32disc : Holder (Feedthrough.model true : Model F _) .float32 3 (0 : UInt32) :=
  of (fun d => d.f32DiscIn) (feedthrough_keep _ fun _ => rfl) (by hold_set) fun _ _ => rfl

def feedthrough_int8 : Holder (Feedthrough.model true : Model F _) .int8 11 (0 : Int) :=
  of (fun d => d.int8In) (feedthrough_keep _ fun _ => rfl) (by hold_set) fun _ _ => rfl

def feedthrough_uint8 : Holder (Feedthrough.model true : Model F _) .uint8 13 (0 : Int) :=
  of (fun d => d.uint8In) (feedthrough_keep _ fun _ => rfl) (by hold_set) fun _ _ => rfl

def feedthrough_int16 : Holder (Feedthrough.model true : Model F _) .int16 15 (0 : Int) :=
  of (fun d => d.int16In) (feedthrough_keep _ fun _ => rfl) (by hold_set) fun _ _ => rfl

def feedthrough_uint16 : Holder (Feedthrough.model true : Model F _) .uint16 17 (0 : Int) :=
  of (fun d => d.uint16In) (feedthrough_keep _ fun _ => rfl) (by hold_set) fun _ _ => rfl

def feedthrough_uint32 : Holder (Feedthrough.model true : Model F _) .uint32 21 (0 : Int) :=
  of (fun d => d.uint32In) (feedthrough_keep _ fun _ => rfl) (by hold_set) fun _ _ => rfl

def feedthrough_int64 : Holder (Feedthrough.model true : Model F _) .int64 23 (0 : Int) :=
  of (fun d => d.int64In) (feedthrough_keep _ fun _ => rfl) (by hold_set) fun _ _ => rfl

def feedthrough_uint64 : Holder (Feedthrough.model true : Model F _) .uint64 25 (0 : Int) :=
  of (fun d => d.uint64In) (feedthrough_keep _ fun _ => rfl) (by hold_set) fun _ _ => rfl

def feedthrough_binary : Holder (Feedthrough.model true : Model F _) .binary 31 (⟨3, some (Feedthrough.ascii "foo")⟩ : CBinary) :=
  of (fun d => ⟨d.binIn.length, some d.binIn⟩) (feedthrough_keep (fun d => (⟨d.binIn.length, some d.binIn⟩ : CBinary)) fun _ => rfl) (by hold_set <;> exact binary_stored (by assumption) (by assumption)) fun _ _ => rfl

def feedthrough_enum3 : Holder (Feedthrough.model true : Model F _) .int64 33 (1 : Int) :=
  of (fun d => d.enumIn) (feedthrough_keep _ fun _ => rfl) (by hold_set) fun _ _ => rfl

end Holder

/-- Input and output of Feedthrough read as the same held value. -/
theorem FeedPort.lens {v3 : Bool} {t : VType} {i o : Nat} {start : t.Val F} (h : FeedPort v3 t i o start) :
    ∃ (H : Holder (Feedthrough.model v3) t i start) (R : List (VType × Nat)) (l : Lens (Feedthrough.model v3) R),
      (t, i) ∈ R ∧ (t, o) ∈ R ∧ (∀ τ d, l.val t i τ d = H.sel d) ∧ ∀ τ d, l.val t o τ d = H.sel d := by
  cases h
  case f64cont =>
    cases v3
    · exact ⟨Holder.feedthrough_f64cont, _, .feedthrough2, by simp, by simp, fun _ _ => rfl, fun _ _ => rfl⟩
    · exact ⟨Holder.feedthrough_f64cont, _, .feedthrough3, by simp, by simp, fun _ _ => rfl, fun _ _ => rfl⟩
  case f64disc =>
    cases v3
    · exact ⟨Holder.feedthrough_f64disc, _, .feedthrough2, by simp, by simp, fun _ _ => rfl, fun _ _ => rfl⟩
    · exact ⟨Holder.feedthrough_f64disc, _, .feedthrough3, by simp, by simp, fun _ _ => rfl, fun _ _ => rfl⟩
  case int32 =>
    cases v3
    · exact ⟨Holder.feedthrough_int32, _, .feedthrough2, by simp, by simp, fun _ _ => rfl, fun _ _ => rfl⟩
    · exact ⟨Holder.feedthrough_int32, _, .feedthrough3, by simp, by simp, fun _ _ => rfl, fun _ _ => rfl⟩
  case boolean =>
    cases v3
    · exact ⟨Holder.feedthrough_boolean, _, .feedthrough2, by simp, by simp, fun _ _ => rfl, fun _ _ => rfl⟩
    · exact ⟨Holder.feedthrough_boolean, _, .feedthrough3, by simp, by simp, fun _ _ => rfl, fun _ _ => rfl⟩
  case string =>
    cases v3
    · exact ⟨Holder.feedthrough_string, _, .feedthrough2, by simp, by simp, fun _ _ => rfl, fun _ _ => rfl⟩
    · exact ⟨Holder.feedthrough_string, _, .feedthrough3, by simp, by simp, fun _ _ => rfl, fun _ _ => rfl⟩
  case enum2 =>
    exact ⟨Holder.feedthrough_enum2, _, .feedthrough2, by simp, by simp, fun _ _ => rfl, fun _ _ => rfl⟩
  case f32cont =>
    exact ⟨Holder.feedthrough_f32cont, _, .feedthrough3, by simp, by simp, fun _ _ => rfl, fun _ _ => rfl⟩
  case f32disc =>
    exact ⟨Holder.feedthrough_f32disc, _, .feedthrough3, by simp, by simp, fun _ _ => rfl, fun _ _ => rfl⟩
  case int8 =>
    exact ⟨Holder.feedthrough_int8, _, .feedthrough3, by simp, by simp, fun _ _ => rfl, fun _ _ => rfl⟩
  case uint8 =>
    exact ⟨Holder.feedthrough_uint8, _, .feedthrough3, by simp, by simp, fun _ _ => rfl, fun _ _ => rfl⟩
  case int16 =>
    exact ⟨Holder.feedthrough_int16, _, .feedthrough3, by simp, by simp, fun _ _ => rfl, fun _ _ => rfl⟩
  case uint16 =>
    exact ⟨Holder.feedthrough_uint16, _, .feedthrough3, by simp, by simp, fun _ _ => rfl, fun _ _ => rfl⟩
  case uint32 =>
    exact ⟨Holder.feedthrough_uint32, _, .feedthrough3, by simp, by simp, fun _ _ => rfl, fun _ _ => rfl⟩
  case int64 =>
    exact ⟨Holder.feedthrough_int64, _, .feedthrough3, by simp, by simp, fun _ _ => rfl, fun _ _ => rfl⟩
  case uint64 =>
    exact ⟨Holder.feedthrough_uint64, _, .feedthrough3, by simp, by simp, fun _ _ => rfl, fun _ _ => rfl⟩
  case binary =>
    exact ⟨Holder.feedthrough_binary, _, .feedthrough3, by simp, by simp, fun _ _ => rfl, fun _ _ => rfl⟩
  case enum3 =>
    exact ⟨Holder.feedthrough_enum3, _, .feedthrough3, by simp, by simp, fun _ _ => rfl, fun _ _ => rfl⟩

theorem Held.lens {m : Model F D} {t : VType} {r : Nat} {start : t.Val F} (h : Held m t r start) :
    ∃ (H : Holder m t r start) (R : List (VType × Nat)) (l : Lens m R),
      (t, r) ∈ R ∧ ∀ τ d, l.val t r τ d = H.sel d := by
  cases h
  case bouncingBall_e => exact ⟨.bouncingBall_e, _, .bouncingBall, by simp, fun _ _ => rfl⟩
  case dahlquist_k => exact ⟨.dahlquist_k, _, .dahlquist, by simp, fun _ _ => rfl⟩
  case vanDerPol_mu => exact ⟨.vanDerPol_mu, _, .vanDerPol, by simp, fun _ _ => rfl⟩
  case roberts_dae => exact ⟨.roberts_dae, _, .roberts, by simp, fun _ _ => rfl⟩
  case feedthrough_fixed v3 =>
    cases v3
    · exact ⟨.feedthrough_fixed, _, .feedthrough2, by simp, fun _ _ => rfl⟩
    · exact ⟨.feedthrough_fixed, _, .feedthrough3, by simp, fun _ _ => rfl⟩
  case feedthrough_tunable v3 =>
    cases v3
    · exact ⟨.feedthrough_tunable, _, .feedthrough2, by simp, fun _ _ => rfl⟩
    · exact ⟨.feedthrough_tunable, _, .feedthrough3, by simp, fun _ _ => rfl⟩
  case feedthrough_input hp =>
    obtain ⟨H, R, l, h, -, h1, -⟩ := hp.lens
    exact ⟨H, R, l, h, h1⟩

end Verif
