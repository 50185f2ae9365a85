import Verif.Spec.FeedthroughRows
import Verif.Spec.Simulation
import Verif.Lemmas.HeldRef
import Verif.Lemmas.Driver
import Verif.Importer.Inputs

/-!
# The inputs and the outputs of Feedthrough in the programs
-/

set_option linter.unusedSectionVars false

namespace Verif
open Importer.CoSim FeedthroughRows
variable {F : Type} [Arith F] [HasInf F]

section
variable {W O V : Type} {call : W → O → Outcome (W × Status × V)}

theorem AllOK.unique {w w₁ w₂ : W} {os : List O} {v₁ v₂ : List V} (h : AllOK call w os w₁ v₁) : AllOK call w os w₂ v₂ → w₁ = w₂ ∧ v₁ = v₂ := by
  induction h generalizing w₂ v₂ with
  | nil => intro h; cases h; exact ⟨rfl, rfl⟩
  | cons e _ ih =>
    intro h
    cases h with
    | cons e' h' =>
      rw [e] at e'
      cases e'
      obtain ⟨rfl, rfl⟩ := ih h'
      exact ⟨rfl, rfl⟩

theorem AllOK.of_calls {w w' : W} {os : List O} {vs : List V} (h : Importer.CoSim.calls call os w = .ret (w', .OK, vs)) : AllOK call w os w' vs := by
  induction os generalizing w vs with
  | nil => cases h; exact .nil
  | cons o os ih =>
    unfold Importer.CoSim.calls at h
    obtain ⟨⟨w1, s, v⟩, e1, e2⟩ := Outcome.bind_eq_ret.1 h
    simp only [] at e2
    split at e2
    · next hs =>
      subst hs
      obtain ⟨⟨w2, s, vs⟩, e3, e4⟩ := Outcome.bind_eq_ret.1 e2
      cases e4
      exact .cons e1 (ih e3)
    · next hs => cases e2; exact absurd rfl hs

theorem AllOK.split {w w' : W} {a b : List O} {vs : List V} (h : AllOK call w (a ++ b) w' vs) :
    ∃ w₁ u v, AllOK call w a w₁ u ∧ AllOK call w₁ b w' v := by
  induction a generalizing w vs with
  | nil => exact ⟨w, [], vs, .nil, h⟩
  | cons o a ih =>
    cases h with
    | cons e h => obtain ⟨w₁, u, v, h1, h2⟩ := ih h; exact ⟨w₁, _, v, .cons e h1, h2⟩

variable {goes : W → F → W → Prop} {ends : W → F → List (Row F V) → Prop} {P : Program F O} {w₀ : W} {S : Type} {Q : S → W → Prop}
  {out : S → List V} {set : F → S}

/-- The results of a simulation in which the recorded values depend on an aspect `S` of the world that only the inputs change. -/
theorem Proceeds.shows (hr : ∀ {s w w' vs}, Q s w → AllOK call w P.record w' vs → vs = out s ∧ Q s w')
    (hi : ∀ {s w w' vs} t, Q s w → AllOK call w (P.inputs t) w' vs → Q (set t) w') (hg : ∀ {s w t w'}, Q s w → goes w t w' → Q s w') {s₀ : S} (h₀ : Q s₀ w₀)
    {k : Nat} {w : W} {rows} (h : Proceeds call goes P w₀ k w rows) :
    Q (if k = 0 then s₀ else set (P.point (k - 1))) w ∧
      rows = (List.range k).map fun k => ⟨P.point k, out (if k = 0 then s₀ else set (P.point (k - 1)))⟩ := by
  induction h with
  | zero => exact ⟨h₀, rfl⟩
  | @succ k w w₁ w₂ rows row _ hv hgo ih =>
    obtain ⟨hq, rfl⟩ := ih
    obtain ⟨ht, w', vs, h1, h2⟩ := hv
    obtain ⟨e, hq'⟩ := hr hq h1
    refine ⟨?_, ?_⟩
    · rw [if_neg (Nat.succ_ne_zero k)]
      exact hg (hi _ hq' h2) hgo
    · cases row
      cases ht
      cases e
      rw [List.range_succ, List.map_append]; rfl

theorem Simulated.shows (hr : ∀ {s w w' vs}, Q s w → AllOK call w P.record w' vs → vs = out s ∧ Q s w')
    (hi : ∀ {s w w' vs} t, Q s w → AllOK call w (P.inputs t) w' vs → Q (set t) w') (hg : ∀ {s w t w'}, Q s w → goes w t w' → Q s w')
    (he : ∀ {s w t last}, Q s w → ¬ends w t last) {s₀ : S} (h₀ : Q s₀ w₀) {N : Nat} {rows} (h : Simulated call goes ends P w₀ N rows) :
    rows = ⟨P.point 0, out s₀⟩ :: (List.range N).map fun k => ⟨P.point (k + 1), out (set (P.point k))⟩ := by
  have key : rows = (List.range (N + 1)).map fun k => ⟨P.point k, out (if k = 0 then s₀ else set (P.point (k - 1)))⟩ := by
    cases h with
    | complete hp hv =>
      rename_i row
      obtain ⟨hq, rfl⟩ := hp.shows (Q := Q) (set := set) hr hi hg h₀
      obtain ⟨ht, w', vs, h1, h2⟩ := hv
      obtain ⟨e, -⟩ := hr hq h1
      cases row
      cases ht
      cases e
      rw [List.range_succ, List.map_append]; rfl
    | ended _ hp hv hend =>
      obtain ⟨hq, -⟩ := hp.shows (Q := Q) (set := set) hr hi hg h₀
      obtain ⟨-, w', vs, h1, h2⟩ := hv
      exact absurd hend (he (hi _ (hr hq h1).2 h2))
  rw [key, List.range_succ_eq_map, List.map_cons, List.map_map]
  rfl

end

/-- What the program records, as a function of the data of the FMU: FMI 3.0. -/
def Feedthrough.shows3 (d : Feedthrough.Data F) : List (FMI3.Out F) := [
  .values .float32 (some [d.f32ContIn, d.f32DiscIn]),
  .values .float64 (some [d.f64ContIn, d.f64DiscIn]),
  .values .int8 (some [d.int8In]),
  .values .uint8 (some [d.uint8In]),
  .values .int16 (some [d.int16In]),
  .values .uint16 (some [d.uint16In]),
  .values .int32 (some [d.int32In]),
  .values .uint32 (some [d.uint32In]),
  .values .int64 (some [d.int64In, d.enumIn]),
  .values .uint64 (some [d.uint64In]),
  .values .boolean (some [d.boolIn]),
  .values .string (some [some d.strIn]),
  .values .binary (some [⟨d.binIn.length, some d.binIn⟩])]

/-- What the program records, as a function of the data of the FMU: FMI 2.0. -/
def Feedthrough.shows2 (d : Feedthrough.Data F) : List (FMI2.Out F) := [
  .reals (some [d.f64ContIn, d.f64DiscIn]),
  .ints (some [d.int32In, d.enumIn]),
  .ints (some [if d.boolIn then 1 else 0]),
  .strs (some [some d.strIn])]

theorem Feedthrough.logError_upd {c : Comp F (Feedthrough.Data F)} {msg : String} {d} (h : Feedthrough.upd c.mv.data = d) :
    Feedthrough.upd (c.logError msg).mv.data = d := by
  simp only [Comp.logError, Verif.logError]; split <;> exact h

theorem Feedthrough.quiet_upd (v3 : Bool) (d : Feedthrough.Data F) :
    Quiet (Feedthrough.model v3 : Model F _) (fun f => f ≠ .set) fun c => Feedthrough.upd c.mv.data = d where
  lift hp hf e := (Holder.feedthrough_fixed_upd hf e).trans hp
  log _ hp := logError_upd hp
  dirty _ hp := hp

theorem Feedthrough.doQuiet_upd (v3 : Bool) (d : Feedthrough.Data F) :
    DoQuiet (Feedthrough.model v3 : Model F _) fun c => Feedthrough.upd c.mv.data = d where
  lift hp hf e := (Holder.feedthrough_fixed_upd (by rintro rfl; simp [MFn.solver] at hf) e).trans hp
  log _ hp := logError_upd hp
  dirty _ hp := hp
  adv hp _ := hp
  iu hp _ := hp
  ncp _ hp := hp
  x _ hp := hp
  dx _ hp := hp
  z _ hp := hp
  prez _ hp := hp

section
variable {W O V : Type} {call : W → O → Outcome (W × Status × V)} {data : W → Feedthrough.Data F}

/-- A call that gets some of the values that the program records. -/
def Displays (call : W → O → Outcome (W × Status × V)) (data : W → Feedthrough.Data F) (op : O) (f : Feedthrough.Data F → V) : Prop :=
  ∀ w w' v, call w op = .ret (w', .OK, v) → v = f (Feedthrough.upd (data w)) ∧ Feedthrough.upd (data w') = Feedthrough.upd (data w)

/-- The calls of `ops` display `fs`. -/
inductive DisplaysAll (call : W → O → Outcome (W × Status × V)) (data : W → Feedthrough.Data F) : List O → List (Feedthrough.Data F → V) → Prop
  | nil : DisplaysAll call data [] []
  | cons {op ops f fs} : Displays call data op f → DisplaysAll call data ops fs → DisplaysAll call data (op :: ops) (f :: fs)

theorem DisplaysAll.all {ops : List O} {fs} (h : DisplaysAll call data ops fs) {w w' : W} {vs} (ha : AllOK call w ops w' vs) :
    vs = fs.map (· (Feedthrough.upd (data w))) ∧ Feedthrough.upd (data w') = Feedthrough.upd (data w) := by
  induction h generalizing w vs with
  | nil => cases ha; exact ⟨rfl, rfl⟩
  | cons h1 _ ih =>
    cases ha with
    | cons e ha =>
      obtain ⟨e1, e2⟩ := h1 _ _ _ e
      obtain ⟨e3, e4⟩ := ih ha
      exact ⟨by rw [e1, e3, e2]; rfl, e4.trans e2⟩

end

theorem Feedthrough.shows3_eq {d e : Feedthrough.Data F} (h : Feedthrough.upd d = Feedthrough.upd e) : Feedthrough.shows3 d = Feedthrough.shows3 e :=
  show Feedthrough.shows3 (Feedthrough.upd d) = Feedthrough.shows3 (Feedthrough.upd e) from congrArg _ h

theorem Feedthrough.shows2_eq {d e : Feedthrough.Data F} (h : Feedthrough.upd d = Feedthrough.upd e) : Feedthrough.shows2 d = Feedthrough.shows2 e :=
  show Feedthrough.shows2 (Feedthrough.upd d) = Feedthrough.shows2 (Feedthrough.upd e) from congrArg _ h

/-- The phase of the discrete signals at a time. -/
def phaseAt (t : F) : Phase := if Importer.CoSim.Feedthrough.before t then .before else .after

namespace FMI3
variable {D : Type} {m : Model F D} {t : VType} {r : Nat} {start : t.Val F}

theorem AllOK.now (h : Holder m t r start) (hm : OkOrError m) {fuel : Nat} {w w' : World F D} {ops : List (Op F)} {vs}
    (ha : AllOK (step m fuel) w ops w' vs) : ∃ s b, h.sel w'.inst.mv.data = (ops.foldl (Mem.after r start) ⟨h.sel w.inst.mv.data, s, b⟩).now := by
  have key : ∀ k, Tracks h w k → Tracks h w' (ops.foldl (Mem.after r start) k) := by
    induction ha with
    | nil => exact fun k h => h
    | cons e _ ih => exact fun k hk => ih _ (step_held h hm hk e)
  exact ⟨_, _, (key ⟨h.sel w.inst.mv.data, fun i => (w.slots i).map fun c => h.sel c.mv.data,
    fun b => ((w.bufs b).bind (·.image)).map fun c => h.sel c.mv.data⟩ ⟨rfl, fun _ => rfl, fun _ => rfl⟩).now⟩

theorem feed_upd (d : Feedthrough.Data F) : CallInvX changes (fun f => f ≠ .set) (Feedthrough.model true : Model F _) (fun _ => True)
    fun c => Feedthrough.upd c.mv.data = d where
  toQuiet := Feedthrough.quiet_upd true d
  calls fn hX f hf := by
    rintro rfl
    cases fn <;> simp [Fn.calls] at hf; exact hX (by simp [changes])
  step _ := Feedthrough.doQuiet_upd true d
  nx _ _ h := h
  nz _ _ h := h
  prez _ _ _ h := h
  term h := h
  enterInit _ _ _ _ h _ := h
  enterConfig _ _ h _ := h
  exitConfig _ _ h _ := h
  reset h := absurd (by simp [changes]) h
  restore h := absurd (by simp [changes]) h
  enterEvent _ _ h _ := h
  enterCT _ _ h _ := h
  setTime _ _ _ h _ := h
  exitInit _ _ h _ := h
  enterStep _ _ h _ := h

theorem keep_feed {fuel : Nat} {w w' : World F (Feedthrough.Data F)} {op : Op F} {s o} (hX : ¬ changes op.fn)
    (e : step (Feedthrough.model true) fuel w op = .ret (w', s, o)) : Feedthrough.upd w'.inst.mv.data = Feedthrough.upd w.inst.mv.data :=
  step_keepX (RefFMU3.feedthrough (F := F)).eff.okOrError (feed_upd _) (fun _ _ _ _ => trivial) rfl (fun _ _ _ _ h => h) hX _ e

macro "feed_get3" : tactic => `(tactic| (
  intro w w' v e
  refine ⟨?_, keep_feed (by simp [Op.fn, changes]) e⟩
  simp only [FMI3.step, FMI3.World.run] at e
  obtain ⟨⟨c, s, b⟩, e1, e2⟩ := Outcome.bind_eq_ret.1 e
  cases e2
  have e3 := FMI3.begin_ret e1
  clear e1 e
  simp only [refresh, OfNat.ofNat_ne_zero, Nat.one_ne_zero, if_false, assertNonNull, Option.isNone_some, Bool.false_eq_true, ite_self] at e3
  congr 1
  split at e3 <;> (cases e3; rfl)))

theorem shows_f32 {fuel : Nat} : Displays (F := F) (step (Feedthrough.model true) fuel) (fun w => w.inst.mv.data) (.get .float32 (some [2, 4]) 2 (some [(0 : UInt32), (0 : UInt32)]) 2) fun d => .values .float32 (some [d.f32ContIn, d.f32DiscIn]) := by feed_get3
theorem shows_f64 {fuel : Nat} : Displays (F := F) (step (Feedthrough.model true) fuel) (fun w => w.inst.mv.data) (.get .float64 (some [8, 10]) 2 (some [Arith.lit 0, Arith.lit 0]) 2) fun d => .values .float64 (some [d.f64ContIn, d.f64DiscIn]) := by feed_get3
theorem shows_i8 {fuel : Nat} : Displays (F := F) (step (Feedthrough.model true) fuel) (fun w => w.inst.mv.data) (.get .int8 (some [12]) 1 (some [(0 : Int)]) 1) fun d => .values .int8 (some [d.int8In]) := by feed_get3
theorem shows_u8 {fuel : Nat} : Displays (F := F) (step (Feedthrough.model true) fuel) (fun w => w.inst.mv.data) (.get .uint8 (some [14]) 1 (some [(0 : Int)]) 1) fun d => .values .uint8 (some [d.uint8In]) := by feed_get3
theorem shows_i16 {fuel : Nat} : Displays (F := F) (step (Feedthrough.model true) fuel) (fun w => w.inst.mv.data) (.get .int16 (some [16]) 1 (some [(0 : Int)]) 1) fun d => .values .int16 (some [d.int16In]) := by feed_get3
theorem shows_u16 {fuel : Nat} : Displays (F := F) (step (Feedthrough.model true) fuel) (fun w => w.inst.mv.data) (.get .uint16 (some [18]) 1 (some [(0 : Int)]) 1) fun d => .values .uint16 (some [d.uint16In]) := by feed_get3
theorem shows_i32 {fuel : Nat} : Displays (F := F) (step (Feedthrough.model true) fuel) (fun w => w.inst.mv.data) (.get .int32 (some [20]) 1 (some [(0 : Int)]) 1) fun d => .values .int32 (some [d.int32In]) := by feed_get3
theorem shows_u32 {fuel : Nat} : Displays (F := F) (step (Feedthrough.model true) fuel) (fun w => w.inst.mv.data) (.get .uint32 (some [22]) 1 (some [(0 : Int)]) 1) fun d => .values .uint32 (some [d.uint32In]) := by feed_get3
theorem shows_i64 {fuel : Nat} : Displays (F := F) (step (Feedthrough.model true) fuel) (fun w => w.inst.mv.data) (.get .int64 (some [24, 34]) 2 (some [(0 : Int), (0 : Int)]) 2) fun d => .values .int64 (some [d.int64In, d.enumIn]) := by feed_get3
theorem shows_u64 {fuel : Nat} : Displays (F := F) (step (Feedthrough.model true) fuel) (fun w => w.inst.mv.data) (.get .uint64 (some [26]) 1 (some [(0 : Int)]) 1) fun d => .values .uint64 (some [d.uint64In]) := by feed_get3
theorem shows_bool {fuel : Nat} : Displays (F := F) (step (Feedthrough.model true) fuel) (fun w => w.inst.mv.data) (.get .boolean (some [28]) 1 (some [false]) 1) fun d => .values .boolean (some [d.boolIn]) := by feed_get3
theorem feed_str {fuel : Nat} : Displays (F := F) (step (Feedthrough.model true) fuel) (fun w => w.inst.mv.data) (.get .string (some [30]) 1 (some [(none : Ptr UInt8)]) 1) fun d => .values .string (some [some d.strIn]) := by feed_get3
theorem shows_bin {fuel : Nat} : Displays (F := F) (step (Feedthrough.model true) fuel) (fun w => w.inst.mv.data) (.get .binary (some [32]) 1 (some [(⟨0, none⟩ : CBinary)]) 1) fun d => .values .binary (some [⟨d.binIn.length, some d.binIn⟩]) := by feed_get3

theorem records_feed (f32 : F → UInt32) {fuel : Nat} {w w' : World F (Feedthrough.Data F)} {vs}
    (ha : AllOK (step (Feedthrough.model true) fuel) w (feedthrough3 f32).record w' vs) :
    vs = Feedthrough.shows3 w.inst.mv.data ∧ Feedthrough.upd w'.inst.mv.data = Feedthrough.upd w.inst.mv.data :=
  DisplaysAll.all (.cons shows_f32 (.cons shows_f64 (.cons shows_i8 (.cons shows_u8 (.cons shows_i16 (.cons shows_u16 (.cons shows_i32 (.cons shows_u32
    (.cons shows_i64 (.cons shows_u64 (.cons shows_bool (.cons feed_str (.cons shows_bin .nil))))))))))))) ha

theorem continuous_feed {a : UInt32} {x : F} {fuel : Nat} {w w' : World F (Feedthrough.Data F)} {vs}
    (ha : AllOK (step (Feedthrough.model true) fuel) w [.set .float32 (some [1]) 1 (some [a]) 1, .set .float64 (some [7]) 1 (some [x]) 1] w' vs)
    {b : UInt32} {y : F} {p : Phase} (h : Feedthrough.shows3 w.inst.mv.data = row3 b y p) : Feedthrough.shows3 w'.inst.mv.data = row3 a x p := by
  have hm := (RefFMU3.feedthrough (F := F)).eff.okOrError
  obtain ⟨_, _, h1⟩ := AllOK.now Holder.feedthrough_f32cont hm ha
  obtain ⟨_, _, h2⟩ := AllOK.now Holder.feedthrough_f32disc hm ha
  obtain ⟨_, _, h3⟩ := AllOK.now Holder.feedthrough_f64cont hm ha
  obtain ⟨_, _, h4⟩ := AllOK.now Holder.feedthrough_f64disc hm ha
  obtain ⟨_, _, h5⟩ := AllOK.now Holder.feedthrough_int8 hm ha
  obtain ⟨_, _, h6⟩ := AllOK.now Holder.feedthrough_uint8 hm ha
  obtain ⟨_, _, h7⟩ := AllOK.now Holder.feedthrough_int16 hm ha
  obtain ⟨_, _, h8⟩ := AllOK.now Holder.feedthrough_uint16 hm ha
  obtain ⟨_, _, h9⟩ := AllOK.now Holder.feedthrough_int32 hm ha
  obtain ⟨_, _, h10⟩ := AllOK.now Holder.feedthrough_uint32 hm ha
  obtain ⟨_, _, h11⟩ := AllOK.now Holder.feedthrough_int64 hm ha
  obtain ⟨_, _, h12⟩ := AllOK.now Holder.feedthrough_uint64 hm ha
  obtain ⟨_, _, h13⟩ := AllOK.now Holder.feedthrough_boolean hm ha
  obtain ⟨_, _, h14⟩ := AllOK.now Holder.feedthrough_string hm ha
  obtain ⟨_, _, h15⟩ := AllOK.now Holder.feedthrough_binary hm ha
  obtain ⟨_, _, h16⟩ := AllOK.now Holder.feedthrough_enum3 hm ha
  change w'.inst.mv.data.f32ContIn = a at h1
  change w'.inst.mv.data.f32DiscIn = w.inst.mv.data.f32DiscIn at h2
  change w'.inst.mv.data.f64ContIn = x at h3
  change w'.inst.mv.data.f64DiscIn = w.inst.mv.data.f64DiscIn at h4
  change w'.inst.mv.data.int8In = w.inst.mv.data.int8In at h5
  change w'.inst.mv.data.uint8In = w.inst.mv.data.uint8In at h6
  change w'.inst.mv.data.int16In = w.inst.mv.data.int16In at h7
  change w'.inst.mv.data.uint16In = w.inst.mv.data.uint16In at h8
  change w'.inst.mv.data.int32In = w.inst.mv.data.int32In at h9
  change w'.inst.mv.data.uint32In = w.inst.mv.data.uint32In at h10
  change w'.inst.mv.data.int64In = w.inst.mv.data.int64In at h11
  change w'.inst.mv.data.uint64In = w.inst.mv.data.uint64In at h12
  change w'.inst.mv.data.boolIn = w.inst.mv.data.boolIn at h13
  change some w'.inst.mv.data.strIn = some w.inst.mv.data.strIn at h14
  change (⟨w'.inst.mv.data.binIn.length, some w'.inst.mv.data.binIn⟩ : CBinary) = ⟨w.inst.mv.data.binIn.length, some w.inst.mv.data.binIn⟩ at h15
  change w'.inst.mv.data.enumIn = w.inst.mv.data.enumIn at h16
  unfold Feedthrough.shows3 row3 at h ⊢
  rw [h1, h2, h3, h4, h5, h6, h7, h8, h9, h10, h11, h12, h13, h14, h15, h16]
  simp only [List.cons.injEq, Out.values.injEq, heq_eq_eq, Option.some.injEq, true_and] at h ⊢
  simp_all
  rw [← h15.2]; exact h15.1

theorem start_feed {x : F} {fuel : Nat} {w w' : World F (Feedthrough.Data F)} {vs}
    (ha : AllOK (step (Feedthrough.model true) fuel) w [.set .float64 (some [5]) 1 (some [x]) 1] w' vs)
    : Feedthrough.shows3 w'.inst.mv.data = Feedthrough.shows3 w.inst.mv.data := by
  have hm := (RefFMU3.feedthrough (F := F)).eff.okOrError
  obtain ⟨_, _, h1⟩ := AllOK.now Holder.feedthrough_f32cont hm ha
  obtain ⟨_, _, h2⟩ := AllOK.now Holder.feedthrough_f32disc hm ha
  obtain ⟨_, _, h3⟩ := AllOK.now Holder.feedthrough_f64cont hm ha
  obtain ⟨_, _, h4⟩ := AllOK.now Holder.feedthrough_f64disc hm ha
  obtain ⟨_, _, h5⟩ := AllOK.now Holder.feedthrough_int8 hm ha
  obtain ⟨_, _, h6⟩ := AllOK.now Holder.feedthrough_uint8 hm ha
  obtain ⟨_, _, h7⟩ := AllOK.now Holder.feedthrough_int16 hm ha
  obtain ⟨_, _, h8⟩ := AllOK.now Holder.feedthrough_uint16 hm ha
  obtain ⟨_, _, h9⟩ := AllOK.now Holder.feedthrough_int32 hm ha
  obtain ⟨_, _, h10⟩ := AllOK.now Holder.feedthrough_uint32 hm ha
  obtain ⟨_, _, h11⟩ := AllOK.now Holder.feedthrough_int64 hm ha
  obtain ⟨_, _, h12⟩ := AllOK.now Holder.feedthrough_uint64 hm ha
  obtain ⟨_, _, h13⟩ := AllOK.now Holder.feedthrough_boolean hm ha
  obtain ⟨_, _, h14⟩ := AllOK.now Holder.feedthrough_string hm ha
  obtain ⟨_, _, h15⟩ := AllOK.now Holder.feedthrough_binary hm ha
  obtain ⟨_, _, h16⟩ := AllOK.now Holder.feedthrough_enum3 hm ha
  change w'.inst.mv.data.f32ContIn = w.inst.mv.data.f32ContIn at h1
  change w'.inst.mv.data.f32DiscIn = w.inst.mv.data.f32DiscIn at h2
  change w'.inst.mv.data.f64ContIn = w.inst.mv.data.f64ContIn at h3
  change w'.inst.mv.data.f64DiscIn = w.inst.mv.data.f64DiscIn at h4
  change w'.inst.mv.data.int8In = w.inst.mv.data.int8In at h5
  change w'.inst.mv.data.uint8In = w.inst.mv.data.uint8In at h6
  change w'.inst.mv.data.int16In = w.inst.mv.data.int16In at h7
  change w'.inst.mv.data.uint16In = w.inst.mv.data.uint16In at h8
  change w'.inst.mv.data.int32In = w.inst.mv.data.int32In at h9
  change w'.inst.mv.data.uint32In = w.inst.mv.data.uint32In at h10
  change w'.inst.mv.data.int64In = w.inst.mv.data.int64In at h11
  change w'.inst.mv.data.uint64In = w.inst.mv.data.uint64In at h12
  change w'.inst.mv.data.boolIn = w.inst.mv.data.boolIn at h13
  change some w'.inst.mv.data.strIn = some w.inst.mv.data.strIn at h14
  change (⟨w'.inst.mv.data.binIn.length, some w'.inst.mv.data.binIn⟩ : CBinary) = ⟨w.inst.mv.data.binIn.length, some w.inst.mv.data.binIn⟩ at h15
  change w'.inst.mv.data.enumIn = w.inst.mv.data.enumIn at h16
  unfold Feedthrough.shows3
  rw [h1, h2, h3, h4, h5, h6, h7, h8, h9, h10, h11, h12, h13, h14, h15, h16]

theorem discrete_feed (f32 : F → UInt32) {t : F} {fuel : Nat} {w w' : World F (Feedthrough.Data F)} {vs}
    (ha : AllOK (step (Feedthrough.model true) fuel) w ((Importer.Euler.feedthroughInputs3 f32).discrete t) w' vs)
    {a : UInt32} {x : F} {p : Phase} (h : Feedthrough.shows3 w.inst.mv.data = row3 a x p) : Feedthrough.shows3 w'.inst.mv.data = row3 a x (phaseAt t) := by
  have hm := (RefFMU3.feedthrough (F := F)).eff.okOrError
  obtain ⟨_, _, h1⟩ := AllOK.now Holder.feedthrough_f32cont hm ha
  obtain ⟨_, _, h2⟩ := AllOK.now Holder.feedthrough_f32disc hm ha
  obtain ⟨_, _, h3⟩ := AllOK.now Holder.feedthrough_f64cont hm ha
  obtain ⟨_, _, h4⟩ := AllOK.now Holder.feedthrough_f64disc hm ha
  obtain ⟨_, _, h5⟩ := AllOK.now Holder.feedthrough_int8 hm ha
  obtain ⟨_, _, h6⟩ := AllOK.now Holder.feedthrough_uint8 hm ha
  obtain ⟨_, _, h7⟩ := AllOK.now Holder.feedthrough_int16 hm ha
  obtain ⟨_, _, h8⟩ := AllOK.now Holder.feedthrough_uint16 hm ha
  obtain ⟨_, _, h9⟩ := AllOK.now Holder.feedthrough_int32 hm ha
  obtain ⟨_, _, h10⟩ := AllOK.now Holder.feedthrough_uint32 hm ha
  obtain ⟨_, _, h11⟩ := AllOK.now Holder.feedthrough_int64 hm ha
  obtain ⟨_, _, h12⟩ := AllOK.now Holder.feedthrough_uint64 hm ha
  obtain ⟨_, _, h13⟩ := AllOK.now Holder.feedthrough_boolean hm ha
  obtain ⟨_, _, h14⟩ := AllOK.now Holder.feedthrough_string hm ha
  obtain ⟨_, _, h15⟩ := AllOK.now Holder.feedthrough_binary hm ha
  obtain ⟨_, _, h16⟩ := AllOK.now Holder.feedthrough_enum3 hm ha
  change w'.inst.mv.data.f32ContIn = w.inst.mv.data.f32ContIn at h1
  change w'.inst.mv.data.f32DiscIn = (if Importer.CoSim.Feedthrough.before t then (0 : UInt32) else 0x3f800000) at h2
  change w'.inst.mv.data.f64ContIn = w.inst.mv.data.f64ContIn at h3
  change w'.inst.mv.data.f64DiscIn = (if Importer.CoSim.Feedthrough.before t then Arith.lit 0 else Arith.lit 1) at h4
  change w'.inst.mv.data.int8In = Importer.CoSim.Feedthrough.range (-128) 127 t at h5
  change w'.inst.mv.data.uint8In = Importer.CoSim.Feedthrough.range 0 255 t at h6
  change w'.inst.mv.data.int16In = Importer.CoSim.Feedthrough.range (-32768) 32767 t at h7
  change w'.inst.mv.data.uint16In = Importer.CoSim.Feedthrough.range 0 65535 t at h8
  change w'.inst.mv.data.int32In = Importer.CoSim.Feedthrough.range (-2147483648) 2147483647 t at h9
  change w'.inst.mv.data.uint32In = Importer.CoSim.Feedthrough.range 0 4294967295 t at h10
  change w'.inst.mv.data.int64In = Importer.CoSim.Feedthrough.range (-9223372036854775808) 9223372036854775807 t at h11
  change w'.inst.mv.data.uint64In = Importer.CoSim.Feedthrough.range 0 18446744073709551615 t at h12
  change w'.inst.mv.data.boolIn = !Importer.CoSim.Feedthrough.before t at h13
  change some w'.inst.mv.data.strIn = (Importer.CoSim.Feedthrough.text t : Ptr UInt8) at h14
  change (⟨w'.inst.mv.data.binIn.length, some w'.inst.mv.data.binIn⟩ : CBinary) = ⟨(Importer.CoSim.Feedthrough.bytes t).size, (Importer.CoSim.Feedthrough.bytes t).data.map (List.take (Importer.CoSim.Feedthrough.bytes t).size)⟩ at h15
  change w'.inst.mv.data.enumIn = Importer.CoSim.Feedthrough.range 1 2 t at h16
  have e1 : w.inst.mv.data.f32ContIn = a := by
    unfold Feedthrough.shows3 row3 at h
    simp only [List.cons.injEq, Out.values.injEq, heq_eq_eq, Option.some.injEq, true_and] at h
    exact h.1.1
  have e3 : w.inst.mv.data.f64ContIn = x := by
    unfold Feedthrough.shows3 row3 at h
    simp only [List.cons.injEq, Out.values.injEq, heq_eq_eq, Option.some.injEq, true_and] at h
    exact h.2.1.1
  unfold Feedthrough.shows3 row3 phaseAt
  rw [h1, h2, h3, h4, h5, h6, h7, h8, h9, h10, h11, h12, h13, h14, h15, h16, e1, e3]
  unfold Importer.CoSim.Feedthrough.range Importer.CoSim.Feedthrough.text Importer.CoSim.Feedthrough.bytes
  have k1 : List.take 3 "foo".toUTF8.toList = "foo".toUTF8.toList := by decide +kernel
  have k2 : List.take 3 "bar".toUTF8.toList = "bar".toUTF8.toList := by decide +kernel
  cases Importer.CoSim.Feedthrough.before t <;>
    simp only [Bool.false_eq_true, if_false, if_true, Phase.pick, Option.map_some, k1, k2, Bool.not_false, Bool.not_true]

end FMI3
namespace FMI2
variable {D : Type} {m : Model F D} {t : VType} {r : Nat} {start : t.Val F}

theorem AllOK.now (h : Holder m t r start) (hm : OkOrError m) {fuel : Nat} {w w' : World F D} {ops : List (Op F)} {vs}
    (ha : AllOK (step m fuel) w ops w' vs) : ∃ s b, h.sel w'.inst.mv.data = (ops.foldl (Mem.after r start) ⟨h.sel w.inst.mv.data, s, b⟩).now := by
  have key : ∀ k, Tracks h w k → Tracks h w' (ops.foldl (Mem.after r start) k) := by
    induction ha with
    | nil => exact fun k h => h
    | cons e _ ih => exact fun k hk => ih _ (step_held h hm hk e)
  exact ⟨_, _, (key ⟨h.sel w.inst.mv.data, fun i => (w.slots i).map fun c => h.sel c.mv.data,
    fun b => ((w.bufs b).bind (·.image)).map fun c => h.sel c.mv.data⟩ ⟨rfl, fun _ => rfl, fun _ => rfl⟩).now⟩

theorem feed_upd (d : Feedthrough.Data F) : CallInvX changes (fun f => f ≠ .set) (Feedthrough.model false : Model F _) (fun _ => True)
    fun c => Feedthrough.upd c.mv.data = d where
  toQuiet := Feedthrough.quiet_upd false d
  calls fn hX f hf := by
    rintro rfl
    cases fn <;> simp [Fn.calls] at hf <;> exact hX (by simp [changes])
  step _ := Feedthrough.doQuiet_upd false d
  nx _ _ h := h
  nz _ _ h := h
  prez _ _ _ h := h
  term h := h
  setup _ _ _ _ h _ := h
  enterInit _ _ h _ := h
  reset h := absurd (by simp [changes]) h
  restore h := absurd (by simp [changes]) h
  enterEvent _ _ h _ := h
  enterCT _ _ h _ := h
  setTime _ _ _ h _ := h
  exitInit _ _ h _ := h

theorem keep_feed {fuel : Nat} {w w' : World F (Feedthrough.Data F)} {op : Op F} {s o} (hX : ¬ changes op.fn)
    (e : step (Feedthrough.model false) fuel w op = .ret (w', s, o)) : Feedthrough.upd w'.inst.mv.data = Feedthrough.upd w.inst.mv.data :=
  step_keepX (RefFMU2.feedthrough (F := F)).eff.okOrError (feed_upd _) (fun _ _ _ _ => trivial) rfl (fun _ _ _ _ h => h) hX _ e

macro "feed_get2" : tactic => `(tactic| (
  intro w w' v e
  refine ⟨?_, keep_feed (by simp [Op.fn, changes]) e⟩
  simp only [FMI2.step, FMI2.World.run] at e
  obtain ⟨⟨c, s, b⟩, e1, e2⟩ := Outcome.bind_eq_ret.1 e
  cases e2
  have e3 := FMI2.begin_ret e1
  clear e1 e
  simp only [getVariables, refresh, OfNat.ofNat_ne_zero, Nat.one_ne_zero, if_false, assertNonNull, Option.isNone_some, Bool.false_eq_true, ite_self] at e3
  congr 1
  split at e3 <;> (cases e3; rfl)))

theorem feed_real {fuel : Nat} : Displays (F := F) (step (Feedthrough.model false) fuel) (fun w => w.inst.mv.data)
    (.getReal (some [8, 10]) 2 (some [Arith.lit 0, Arith.lit 0])) fun d => .reals (some [d.f64ContIn, d.f64DiscIn]) := by feed_get2
theorem feed_int {fuel : Nat} : Displays (F := F) (step (Feedthrough.model false) fuel) (fun w => w.inst.mv.data)
    (.getInteger (some [20, 34]) 2 (some [0, 0])) fun d => .ints (some [d.int32In, d.enumIn]) := by feed_get2
theorem feed_str {fuel : Nat} : Displays (F := F) (step (Feedthrough.model false) fuel) (fun w => w.inst.mv.data)
    (.getString (some [30]) 1 (some [none])) fun d => .strs (some [some d.strIn]) := by feed_get2
theorem feed_bool {fuel : Nat} : Displays (F := F) (step (Feedthrough.model false) fuel) (fun w => w.inst.mv.data)
    (.getBoolean (some [28]) 1 (some [0])) fun d => .ints (some [if d.boolIn then 1 else 0]) := by
  intro w w' v e
  refine ⟨?_, keep_feed (by simp [Op.fn, changes]) e⟩
  simp only [FMI2.step, FMI2.World.run] at e
  obtain ⟨⟨c, s, b⟩, e1, e2⟩ := Outcome.bind_eq_ret.1 e
  cases e2
  have e3 := FMI2.begin_ret e1
  clear e1 e
  cases e3
  rfl

theorem records_feed {fuel : Nat} {w w' : World F (Feedthrough.Data F)} {vs}
    (ha : AllOK (step (Feedthrough.model false) fuel) w (feedthrough2 : Program F _).record w' vs) :
    vs = Feedthrough.shows2 w.inst.mv.data ∧ Feedthrough.upd w'.inst.mv.data = Feedthrough.upd w.inst.mv.data :=
  DisplaysAll.all (.cons feed_real (.cons feed_int (.cons feed_bool (.cons feed_str .nil)))) ha

theorem continuous_feed {x : F} {fuel : Nat} {w w' : World F (Feedthrough.Data F)} {vs}
    (ha : AllOK (step (Feedthrough.model false) fuel) w [.setReal (some [7]) 1 (some [x])] w' vs)
    {y z : F} {p : Phase} (h : Feedthrough.shows2 w.inst.mv.data = row2 y z p) : Feedthrough.shows2 w'.inst.mv.data = row2 x z p := by
  have hm := (RefFMU2.feedthrough (F := F)).eff.okOrError
  obtain ⟨_, _, h1⟩ := AllOK.now Holder.feedthrough_f64cont hm ha
  obtain ⟨_, _, h2⟩ := AllOK.now Holder.feedthrough_f64disc hm ha
  obtain ⟨_, _, h3⟩ := AllOK.now Holder.feedthrough_int32 hm ha
  obtain ⟨_, _, h4⟩ := AllOK.now Holder.feedthrough_boolean hm ha
  obtain ⟨_, _, h5⟩ := AllOK.now Holder.feedthrough_string hm ha
  obtain ⟨_, _, h6⟩ := AllOK.now Holder.feedthrough_enum2 hm ha
  change w'.inst.mv.data.f64ContIn = x at h1
  change w'.inst.mv.data.f64DiscIn = w.inst.mv.data.f64DiscIn at h2
  change w'.inst.mv.data.int32In = w.inst.mv.data.int32In at h3
  change w'.inst.mv.data.boolIn = w.inst.mv.data.boolIn at h4
  change some w'.inst.mv.data.strIn = some w.inst.mv.data.strIn at h5
  change w'.inst.mv.data.enumIn = w.inst.mv.data.enumIn at h6
  unfold Feedthrough.shows2 row2 at h ⊢
  rw [h1, h2, h3, h4, h5, h6]
  simp only [List.cons.injEq, Out.reals.injEq, Option.some.injEq, and_true] at h ⊢
  exact ⟨⟨trivial, h.1.2⟩, h.2⟩

theorem start_feed {x : F} {fuel : Nat} {w w' : World F (Feedthrough.Data F)} {vs}
    (ha : AllOK (step (Feedthrough.model false) fuel) w [.setReal (some [5]) 1 (some [x])] w' vs)
    : Feedthrough.shows2 w'.inst.mv.data = Feedthrough.shows2 w.inst.mv.data := by
  have hm := (RefFMU2.feedthrough (F := F)).eff.okOrError
  obtain ⟨_, _, h1⟩ := AllOK.now Holder.feedthrough_f64cont hm ha
  obtain ⟨_, _, h2⟩ := AllOK.now Holder.feedthrough_f64disc hm ha
  obtain ⟨_, _, h3⟩ := AllOK.now Holder.feedthrough_int32 hm ha
  obtain ⟨_, _, h4⟩ := AllOK.now Holder.feedthrough_boolean hm ha
  obtain ⟨_, _, h5⟩ := AllOK.now Holder.feedthrough_string hm ha
  obtain ⟨_, _, h6⟩ := AllOK.now Holder.feedthrough_enum2 hm ha
  change w'.inst.mv.data.f64ContIn = w.inst.mv.data.f64ContIn at h1
  change w'.inst.mv.data.f64DiscIn = w.inst.mv.data.f64DiscIn at h2
  change w'.inst.mv.data.int32In = w.inst.mv.data.int32In at h3
  change w'.inst.mv.data.boolIn = w.inst.mv.data.boolIn at h4
  change some w'.inst.mv.data.strIn = some w.inst.mv.data.strIn at h5
  change w'.inst.mv.data.enumIn = w.inst.mv.data.enumIn at h6
  unfold Feedthrough.shows2
  rw [h1, h2, h3, h4, h5, h6]

theorem discrete_feed {t : F} {fuel : Nat} {w w' : World F (Feedthrough.Data F)} {vs}
    (ha : AllOK (step (Feedthrough.model false) fuel) w ((Importer.Euler.feedthroughInputs2 : Importer.Euler.Inputs F _).discrete t) w' vs)
    {x y : F} {p : Phase} (h : Feedthrough.shows2 w.inst.mv.data = row2 x y p) : Feedthrough.shows2 w'.inst.mv.data = row2 x y (phaseAt t) := by
  have hm := (RefFMU2.feedthrough (F := F)).eff.okOrError
  obtain ⟨_, _, h1⟩ := AllOK.now Holder.feedthrough_f64cont hm ha
  obtain ⟨_, _, h2⟩ := AllOK.now Holder.feedthrough_f64disc hm ha
  obtain ⟨_, _, h3⟩ := AllOK.now Holder.feedthrough_int32 hm ha
  obtain ⟨_, _, h4⟩ := AllOK.now Holder.feedthrough_boolean hm ha
  obtain ⟨_, _, h5⟩ := AllOK.now Holder.feedthrough_string hm ha
  obtain ⟨_, _, h6⟩ := AllOK.now Holder.feedthrough_enum2 hm ha
  change w'.inst.mv.data.f64ContIn = w.inst.mv.data.f64ContIn at h1
  change w'.inst.mv.data.f64DiscIn = w.inst.mv.data.f64DiscIn at h2
  change w'.inst.mv.data.int32In = Importer.CoSim.Feedthrough.range (-2147483648) 2147483647 t at h3
  change w'.inst.mv.data.boolIn = decide ((if Importer.CoSim.Feedthrough.before t then (0 : Int) else 1) ≠ 0) at h4
  change some w'.inst.mv.data.strIn = (Importer.CoSim.Feedthrough.text t : Ptr UInt8) at h5
  change w'.inst.mv.data.enumIn = w.inst.mv.data.enumIn at h6
  unfold Feedthrough.shows2 row2 at h
  simp only [List.cons.injEq, Out.reals.injEq, Out.ints.injEq, Option.some.injEq, and_true] at h
  unfold Feedthrough.shows2 row2 phaseAt
  rw [h1, h2, h3, h4, h5, h6, h.1.1, h.1.2, h.2.1.2]
  unfold Importer.CoSim.Feedthrough.range Importer.CoSim.Feedthrough.text
  cases Importer.CoSim.Feedthrough.before t <;> rfl

end FMI2
end Verif
