import Verif.Lemmas.Fixed
import Verif.Spec.Held

/-!
# Variables that only set functions change

`Holder m t r start`: the variable `r` of type `t` is a part of the data that only its setter changes.
The theorems `run_held` calculate its value after a history.
-/

set_option linter.unusedSectionVars false

namespace Verif
variable {F D : Type} [Arith F] [HasInf F] {m : Model F D} {t : VType} {r : Nat} {start : t.Val F}

/-- The variable is a part of the data that only its setter changes. -/
structure Holder (m : Model F D) (t : VType) (r : Nat) (start : t.Val F) where
  sel : D → t.Val F
  fixed : ∀ {f ctx mv mv' s}, f ≠ .set → MStep m f ctx mv mv' s → sel mv'.data = sel mv.data
  set : ∀ {t' r' ctx mv p n i mv' j}, m.set t' ctx mv r' p n i = .ret (mv', .OK, j) →
    ∃ v, p.read i = .ret v ∧ j = i + 1 ∧ sel mv'.data = assign t r (sel mv.data) ⟨t', r', v⟩
  start : ∀ ctx mv, sel (m.setStartValues ctx mv).data = start

theorem call_inv {α β : Type} {r : Res F D α} {stop : α → β} {k} {c' : Comp F D} {b : β}
    (hr : r.All fun x => x.2.1 = .OK ∨ x.2.1 = .Error)
    (e : call .OK r stop k = .ret (c', .OK, b)) : ∃ c a, r = .ret (c, .OK, a) ∧ k c .OK a = .ret (c', .OK, b) := by
  unfold call at e
  obtain ⟨⟨c, s, a⟩, h1, h2⟩ := Outcome.bind_eq_ret.1 e
  rcases hr _ h1 with h | h <;> simp only at h <;> subst h
  · exact ⟨c, a, h1, h2⟩
  · simp [Status.rank] at h2

theorem lift_inv (hm : OkOrError m) {α β : Type} {c : Comp F D} {r : MRes F D α} {f : MFn}
    (hr : ∀ mv' s b, r = .ret (mv', s, b) → MStep m f c.ctx c.mv mv' s) {stop : α → β} {k} {c' : Comp F D} {b : β}
    (e : call .OK (c.lift r) stop k = .ret (c', .OK, b)) :
    ∃ mv' a, r = .ret (mv', .OK, a) ∧ k { c with mv := mv' } .OK a = .ret (c', .OK, b) := by
  have hl : (c.lift r).All fun x => x.2.1 = .OK ∨ x.2.1 = .Error := by
    refine Outcome.All.bind Outcome.all_self ?_
    rintro ⟨mv', s, b⟩ e
    exact Outcome.all_ret.2 (hm _ _ _ _ _ (hr _ _ _ e))
  obtain ⟨c1, a, h1, h2⟩ := call_inv hl e
  obtain ⟨⟨mv', s, a'⟩, h3, h4⟩ := Outcome.bind_eq_ret.1 h1
  cases h4
  exact ⟨_, _, h3, h2⟩

theorem Ptr.read_inv {α : Type} {p : Ptr α} {i : Nat} {a : α} (h : p.read i = .ret a) :
    ∃ l, p = some l ∧ l.drop i = a :: l.drop (i + 1) := by
  unfold Ptr.read at h
  split at h
  · cases h
  · next l =>
    split at h
    · next x hx =>
      cases h
      obtain ⟨hi, rfl⟩ := List.getElem?_eq_some_iff.1 hx
      exact ⟨l, rfl, List.drop_eq_getElem_cons hi⟩
    · cases h

namespace Holder

theorem setLoop (h : Holder m t r start) (hm : OkOrError m) {t' : VType} {vr : Ptr Nat} {values : Ptr (t'.Val F)}
    {nv : Nat} (n : Nat) : ∀ {i : Nat} {c c' : Comp F D} {j : Nat},
    Verif.setLoop m t' vr values nv n i c .OK i = .ret (c', .OK, j) →
    h.sel c'.mv.data = (((((vr.getD []).drop i).zip ((values.getD []).drop i)).take n).map
      fun p => (⟨t', p⟩ : Assignment F)).foldl (assign t r) (h.sel c.mv.data) := by
  induction n with
  | zero => intro i c c' j e; cases e; rfl
  | succ n ih =>
    intro i c c' j e
    rw [Verif.setLoop] at e
    obtain ⟨r', e1, e⟩ := Outcome.bind_eq_ret.1 e
    obtain ⟨mv', i', e2, e⟩ := lift_inv hm (fun _ _ _ e => .set e) e
    obtain ⟨v, e3, rfl, e4⟩ := h.set e2
    obtain ⟨l1, rfl, h1⟩ := Ptr.read_inv e1
    obtain ⟨l2, rfl, h2⟩ := Ptr.read_inv e3
    rw [ih e]
    simp only [Option.getD_some] at *
    rw [h1, h2, e4]
    rfl

theorem setBooleanLoop (h : Holder m t r start) (hm : OkOrError m) {vr : Ptr Nat} {values : Ptr Int}
    {nv : Nat} (n : Nat) : ∀ {i : Nat} {c c' : Comp F D} {u : Unit},
    FMI2.setBooleanLoop m vr nv values n i c .OK = .ret (c', .OK, u) →
    h.sel c'.mv.data = (((((vr.getD []).drop i).zip ((values.getD []).drop i)).take n).map
      fun p => (⟨.boolean, p.1, decide (p.2 ≠ 0)⟩ : Assignment F)).foldl (assign t r) (h.sel c.mv.data) := by
  induction n with
  | zero => intro i c c' j e; cases e; rfl
  | succ n ih =>
    intro i c c' j e
    rw [FMI2.setBooleanLoop] at e
    obtain ⟨v, e1, e⟩ := Outcome.bind_eq_ret.1 e
    obtain ⟨r', e3, e⟩ := Outcome.bind_eq_ret.1 e
    obtain ⟨mv', i', e2, e⟩ := lift_inv hm (fun _ _ _ e => .set e) e
    obtain ⟨v', e5, -, e4⟩ := h.set e2
    cases e5
    obtain ⟨l1, rfl, h1⟩ := Ptr.read_inv e1
    obtain ⟨l2, rfl, h2⟩ := Ptr.read_inv e3
    rw [ih e]
    simp only [Option.getD_some] at *
    rw [h1, h2, e4]
    rfl

theorem logError (h : Holder m t r start) (c : Comp F D) (msg : String) :
    h.sel (c.logError msg).mv.data = h.sel c.mv.data := by
  simp only [Comp.logError, Verif.logError]; split <;> rfl

theorem quiet (h : Holder m t r start) (v : t.Val F) : Quiet m (fun f => f ≠ .set) fun c => h.sel c.mv.data = v where
  lift hp hf e := (h.fixed hf e).trans hp
  log msg hp := (h.logError _ msg).trans hp
  dirty _ hp := hp

theorem doQuiet (h : Holder m t r start) (v : t.Val F) : DoQuiet m fun c => h.sel c.mv.data = v where
  lift hp hf e := (h.fixed (by rintro rfl; simp [MFn.solver] at hf) e).trans hp
  log msg hp := (h.logError _ msg).trans hp
  dirty _ hp := hp
  adv hp _ := hp
  iu hp _ := hp
  ncp _ hp := hp
  x _ hp := hp
  dx _ hp := hp
  z _ hp := hp
  prez _ hp := hp

end Holder

theorem createModelInstance_sel (h : Holder m t r start)
    {ver3 logger iu name token resource loggingOn mem typ} {c : Comp F D} {l}
    (e : createModelInstance m ver3 logger iu name token resource loggingOn mem typ = (some c, l)) :
    h.sel c.mv.data = start := by
  unfold createModelInstance at e
  simp only at e
  repeat' split at e
  all_goals first | (simp at e; done) | skip
  obtain ⟨e, -⟩ := Prod.mk.inj e
  cases e
  exact h.start _ _

namespace FMI2

/-- The functions that change a held variable. -/
def changes (fn : Fn) : Prop :=
  fn ∈ [Fn.setReal, .setInteger, .setBoolean, .setString, .reset, .setFMUstate]

theorem held_inv (h : Holder m t r start) (v : t.Val F) :
    CallInvX changes (fun f => f ≠ .set) m (fun _ => True) fun c => h.sel c.mv.data = v where
  toQuiet := h.quiet v
  calls fn hX f hf := by
    rintro rfl
    cases fn <;> simp [Fn.calls] at hf <;> exact hX (by simp [changes])
  step _ := h.doQuiet v
  nx _ _ h := h
  nz _ _ h := h
  prez _ _ _ h := h
  term h := h
  setup _ _ _ _ h _ := h
  enterInit _ _ h _ := h
  reset h := absurd (by simp [changes]) h
  restore h := absurd (by simp [changes]) h
  enterEvent _ _ h _ := h
  enterCT _ _ h _ := h
  setTime _ _ _ h _ := h
  exitInit _ _ h _ := h

/-- The memory agrees with the world. -/
structure Tracks (h : Holder m t r start) (w : World F D) (k : Mem (t.Val F)) : Prop where
  now : h.sel w.inst.mv.data = k.now
  saved : ∀ i, (w.slots i).map (fun c => h.sel c.mv.data) = k.saved i
  bytes : ∀ b, ((w.bufs b).bind (·.image)).map (fun c => h.sel c.mv.data) = k.bytes b

theorem keep_held (h : Holder m t r start) (hm : OkOrError m) {fuel : Nat} {w w' : World F D} {op : Op F} {s o}
    (hX : ¬ changes op.fn) (e : step m fuel w op = .ret (w', s, o)) :
    h.sel w'.inst.mv.data = h.sel w.inst.mv.data :=
  step_keepX hm (held_inv h _) (fun _ _ _ _ => trivial) rfl (fun _ _ _ _ h => h) hX _ e

theorem run_ret {β : Type} {w w' : World F D} {x : Res F D β} {out : β → Out F} {s o}
    (e : w.run x out = .ret (w', s, o)) : ∃ c b, x = .ret (c, s, b) ∧ w' = { w with inst := c } := by
  unfold World.run at e
  obtain ⟨⟨c, s', b⟩, e1, e2⟩ := Outcome.bind_eq_ret.1 e
  cases e2
  exact ⟨c, b, e1, rfl⟩

theorem begin_ret {β : Type} {mask : Nat} {name : String} {c c' : Comp F D} {stop b : β} {k : Comp F D → Res F D β}
    (e : begin mask name c stop k = .ret (c', .OK, b)) : k c = .ret (c', .OK, b) := by
  unfold begin beginFunction at e
  split at e
  · exact e
  · cases e

theorem setVariables_held (h : Holder m t r start) (hm : OkOrError m) {t' : VType} {vr : Ptr Nat} {n : Nat}
    {v : Ptr (t'.Val F)} {c c' : Comp F D} {u : Unit} (e : setVariables m t' vr n v c = .ret (c', .OK, u)) :
    h.sel c'.mv.data = ((((vr.getD []).zip (v.getD [])).take n).map
      fun p => (⟨t', p⟩ : Assignment F)).foldl (assign t r) (h.sel c.mv.data) := by
  unfold setVariables assertNonNull at e
  split at e
  · next h0 => subst h0; cases e; rfl
  · split at e
    · cases e
    · split at e
      · cases e
      · obtain ⟨⟨c1, st, j⟩, e1, e2⟩ := Outcome.bind_eq_ret.1 e
        simp only at e2
        split at e2
        · next hs => cases e2; simp at hs
        · cases e2; exact h.setLoop hm n e1

theorem step_held (h : Holder m t r start) (hm : OkOrError m) {fuel : Nat} {w w' : World F D} {k : Mem (t.Val F)}
    (hk : Tracks h w k) {op : Op F} {o : Out F} (e : step m fuel w op = .ret (w', .OK, o)) :
    Tracks h w' (Mem.after r start k op) := by
  have inst : ∀ {β : Type} {x : Res F D β} {out : β → Out F} {v : t.Val F}, w.run x out = .ret (w', .OK, o) →
      h.sel w'.inst.mv.data = v → Tracks h w' { k with now := v } := by
    intro β x out v e1 e2
    obtain ⟨c, b, -, rfl⟩ := run_ret e1
    exact ⟨e2, hk.saved, hk.bytes⟩
  have keep := fun hX => keep_held h hm (hX : ¬ changes op.fn) e
  have quiet : op.assignments = [] → { k with now := op.assignments.foldl (assign t r) k.now } = k := by
    intro h; rw [h]; rfl
  have slot : ∀ {i : Nat} {x : Res F D (Option (Comp F D))} {v : Option (t.Val F)},
      (∀ c s, x = .ret (c, .OK, s) → s.map (fun c => h.sel c.mv.data) = v) → ¬ changes op.fn →
      w.runSlot i x = .ret (w', .OK, o) →
      Tracks h w' { k with saved := fun j => if j = i then v else k.saved j } := by
    intro i x v hv hX e1
    have := keep hX
    unfold World.runSlot at e1
    obtain ⟨⟨c, s', b⟩, e3, e2⟩ := Outcome.bind_eq_ret.1 e1
    cases e2
    refine ⟨this.trans hk.now, fun j => ?_, hk.bytes⟩
    simp only
    split
    · exact hv _ _ e3
    · exact hk.saved j
  cases op
  case setReal vr n v =>
    simp only [step] at e
    refine inst e ?_
    obtain ⟨c, b, e1, rfl⟩ := run_ret e
    rw [← hk.now]
    exact setVariables_held h hm (t' := .float64) (begin_ret e1)
  case setInteger vr n v =>
    simp only [step] at e
    refine inst e ?_
    obtain ⟨c, b, e1, rfl⟩ := run_ret e
    rw [← hk.now]
    exact setVariables_held h hm (t' := .int32) (begin_ret e1)
  case setString vr n v =>
    simp only [step] at e
    refine inst e ?_
    obtain ⟨c, b, e1, rfl⟩ := run_ret e
    rw [← hk.now]
    exact setVariables_held h hm (t' := .string) (begin_ret e1)
  case setBoolean vr n v =>
    simp only [step] at e
    refine inst e ?_
    obtain ⟨c, b, e1, rfl⟩ := run_ret e
    rw [← hk.now]
    exact h.setBooleanLoop hm n (begin_ret e1)
  case reset =>
    simp only [step] at e
    refine inst e ?_
    obtain ⟨c, b, e1, rfl⟩ := run_ret e
    have := begin_ret e1
    cases this
    exact h.start _ _
  case setFMUstate i =>
    simp only [step] at e
    refine inst e ?_
    obtain ⟨c, b, e1, rfl⟩ := run_ret e
    have e2 := begin_ret e1
    have hs := hk.saved i
    revert e2 hs
    cases w.slots i with
    | none => intro e2 hs; cases e2; rw [← hs]; exact (h.logError _ _).trans hk.now
    | some s => intro e2 hs; cases e2; rw [← hs]; rfl
  case getFMUstate i =>
    refine slot (fun c s e1 => ?_) (by simp [changes, Op.fn]) e
    cases begin_ret e1
    rw [← hk.now]; rfl
  case freeFMUstate i =>
    refine slot (fun c s e1 => ?_) (by simp [changes, Op.fn]) e
    cases begin_ret e1
    rfl
  case deSerializeFMUstate b n i =>
    refine slot (fun c s e1 => ?_) (by simp [changes, Op.fn]) e
    have e2 := begin_ret e1
    split at e2
    · cases e2
    · obtain ⟨s', e3, e4⟩ := Outcome.bind_eq_ret.1 e2
      cases e4
      rw [← hk.bytes b]
      unfold Buffer.load at e3
      split at e3
      · cases e3
      · next hb =>
        rw [hb]
        split at e3
        · cases e3
        · split at e3
          · cases e3
          · next hi => cases e3; simp only [Option.bind_some, hi]
  case serializeFMUstate i b n =>
    have hX := keep (by simp [changes, Op.fn])
    simp only [step, World.runBuf] at e
    obtain ⟨⟨c, s', buf⟩, e1, e2⟩ := Outcome.bind_eq_ret.1 e
    cases e2
    refine ⟨hX.trans hk.now, hk.saved, fun j => ?_⟩
    simp only [Mem.after]
    split
    · have e2 := begin_ret e1
      have hs := hk.saved i
      revert e2 hs
      cases w.slots i with
      | none => intro e2 hs; cases e2
      | some s =>
        intro e2 hs
        simp only at e2
        split at e2
        · cases e2
        · obtain ⟨b', e3, e4⟩ := Outcome.bind_eq_ret.1 e2
          cases e4
          unfold Buffer.store at e3
          split at e3
          · cases e3
          · split at e3
            · cases e3
            · cases e3; exact hs
    · exact hk.bytes j
  all_goals
    show Tracks h w' { k with now := _ }
    have hn := ((keep (by simp [changes, Op.fn])).trans hk.now)
    simp only [step] at e
    exact inst e hn

theorem run_held (h : Holder m t r start) (hm : OkOrError m) {fuel : Nat} (ops : List (Op F)) :
    ∀ {w w' : World F D} {k : Mem (t.Val F)} {outs}, Tracks h w k → run m fuel w ops = .ret (w', outs) →
    (∀ p ∈ outs, p.1 = .OK) → Tracks h w' (ops.foldl (Mem.after r start) k) := by
  induction ops with
  | nil => intro w w' k outs hk e _; cases e; exact hk
  | cons op ops ih =>
    intro w w' k outs hk e hs
    rw [run] at e
    obtain ⟨⟨w1, s, o⟩, e1, e⟩ := Outcome.bind_eq_ret.1 e
    obtain ⟨⟨w2, l⟩, e2, e⟩ := Outcome.bind_eq_ret.1 e
    cases e
    have := hs (s, o) (by simp)
    simp only at this
    subst this
    exact ih (step_held h hm hk e1) e2 fun p hp => hs p (by simp [hp])

theorem initial_held (h : Holder m t r start) {name it guid resource functions loggingOn mem} {c : Comp F D} {l}
    (e : instantiate m name it guid resource functions loggingOn mem = (some c, l)) {w : World F D}
    (hw : w.Initial c) : Tracks h w (Mem.new start) := by
  refine ⟨?_, fun i => by rw [hw.slots]; rfl, fun b => ?_⟩
  · rw [hw.inst]
    unfold instantiate at e
    split at e
    · simp at e
    · simp at e
    · exact createModelInstance_sel h e
  · have := hw.bufs b
    cases hb : w.bufs b with
    | none => rfl
    | some x => simp [this x hb]; rfl

end FMI2

namespace FMI3

/-- The functions that change a held variable. -/
def changes (fn : Fn) : Prop := (∃ t, fn = .set t) ∨ fn = .reset ∨ fn = .setFMUState

theorem held_inv (h : Holder m t r start) (v : t.Val F) :
    CallInvX changes (fun f => f ≠ .set) m (fun _ => True) fun c => h.sel c.mv.data = v where
  toQuiet := h.quiet v
  calls fn hX f hf := by
    rintro rfl
    cases fn <;> simp [Fn.calls] at hf <;> exact hX (by simp [changes])
  step _ := h.doQuiet v
  nx _ _ h := h
  nz _ _ h := h
  prez _ _ _ h := h
  term h := h
  enterInit _ _ _ _ h _ := h
  enterConfig _ _ h _ := h
  exitConfig _ _ h _ := h
  reset h := absurd (by simp [changes]) h
  restore h := absurd (by simp [changes]) h
  enterEvent _ _ h _ := h
  enterCT _ _ h _ := h
  setTime _ _ _ h _ := h
  exitInit _ _ h _ := h
  enterStep _ _ h _ := h

/-- The memory agrees with the world. -/
structure Tracks (h : Holder m t r start) (w : World F D) (k : Mem (t.Val F)) : Prop where
  now : h.sel w.inst.mv.data = k.now
  saved : ∀ i, (w.slots i).map (fun c => h.sel c.mv.data) = k.saved i
  bytes : ∀ b, ((w.bufs b).bind (·.image)).map (fun c => h.sel c.mv.data) = k.bytes b

theorem keep_held (h : Holder m t r start) (hm : OkOrError m) {fuel : Nat} {w w' : World F D} {op : Op F} {s o}
    (hX : ¬ changes op.fn) (e : step m fuel w op = .ret (w', s, o)) :
    h.sel w'.inst.mv.data = h.sel w.inst.mv.data :=
  step_keepX hm (held_inv h _) (fun _ _ _ _ => trivial) rfl (fun _ _ _ _ h => h) hX _ e

theorem run_ret {β : Type} {w w' : World F D} {x : Res F D β} {out : β → Out F} {s o}
    (e : w.run x out = .ret (w', s, o)) : ∃ c b, x = .ret (c, s, b) ∧ w' = { w with inst := c } := by
  unfold World.run at e
  obtain ⟨⟨c, s', b⟩, e1, e2⟩ := Outcome.bind_eq_ret.1 e
  cases e2
  exact ⟨c, b, e1, rfl⟩

theorem begin_ret {β : Type} {mask : Nat} {name : String} {c c' : Comp F D} {stop b : β} {k : Comp F D → Res F D β}
    (e : begin mask name c stop k = .ret (c', .OK, b)) : k c = .ret (c', .OK, b) := by
  unfold begin beginFunction at e
  split at e
  · exact e
  · cases e

theorem setVars_held (h : Holder m t r start) (hm : OkOrError m) {t' : VType} {vr : Ptr Nat} {n nv : Nat}
    {v : Ptr (t'.Val F)} {c c' : Comp F D} {u : Unit} (e : setVars m t' c vr n v nv = .ret (c', .OK, u)) :
    h.sel c'.mv.data = ((((vr.getD []).zip (v.getD [])).take n).map
      fun p => (⟨t', p⟩ : Assignment F)).foldl (assign t r) (h.sel c.mv.data) := by
  unfold setVars at e
  replace e := begin_ret e
  unfold assertNonNull at e
  split at e
  · next h0 => subst h0; cases e; rfl
  · split at e
    · cases e
    · obtain ⟨⟨c1, st, j⟩, e1, e2⟩ := Outcome.bind_eq_ret.1 e
      simp only at e2
      split at e2
      · next hs => cases e2; simp at hs
      · split at e2
        · cases e2
        · cases e2; exact h.setLoop hm n e1

theorem step_held (h : Holder m t r start) (hm : OkOrError m) {fuel : Nat} {w w' : World F D} {k : Mem (t.Val F)}
    (hk : Tracks h w k) {op : Op F} {o : Out F} (e : step m fuel w op = .ret (w', .OK, o)) :
    Tracks h w' (Mem.after r start k op) := by
  have inst : ∀ {β : Type} {x : Res F D β} {out : β → Out F} {v : t.Val F}, w.run x out = .ret (w', .OK, o) →
      h.sel w'.inst.mv.data = v → Tracks h w' { k with now := v } := by
    intro β x out v e1 e2
    obtain ⟨c, b, -, rfl⟩ := run_ret e1
    exact ⟨e2, hk.saved, hk.bytes⟩
  have keep := fun hX => keep_held h hm (hX : ¬ changes op.fn) e
  have slot : ∀ {i : Nat} {x : Res F D (Option (Comp F D))} {v : Option (t.Val F)},
      (∀ c s, x = .ret (c, .OK, s) → s.map (fun c => h.sel c.mv.data) = v) → ¬ changes op.fn →
      w.runSlot i x = .ret (w', .OK, o) →
      Tracks h w' { k with saved := fun j => if j = i then v else k.saved j } := by
    intro i x v hv hX e1
    have := keep hX
    unfold World.runSlot at e1
    obtain ⟨⟨c, s', b⟩, e3, e2⟩ := Outcome.bind_eq_ret.1 e1
    cases e2
    refine ⟨this.trans hk.now, fun j => ?_, hk.bytes⟩
    simp only
    split
    · exact hv _ _ e3
    · exact hk.saved j
  cases op
  case set t' vr n v nv =>
    simp only [step] at e
    refine inst e ?_
    obtain ⟨c, b, e1, rfl⟩ := run_ret e
    rw [← hk.now]
    exact setVars_held h hm e1
  case reset =>
    simp only [step] at e
    refine inst e ?_
    obtain ⟨c, b, e1, rfl⟩ := run_ret e
    have := begin_ret e1
    cases this
    exact h.start _ _
  case setFMUState i =>
    simp only [step] at e
    refine inst e ?_
    obtain ⟨c, b, e1, rfl⟩ := run_ret e
    have e2 := begin_ret e1
    have hs := hk.saved i
    revert e2 hs
    cases w.slots i with
    | none => intro e2 hs; cases e2
    | some s => intro e2 hs; cases e2; rw [← hs]; rfl
  case getFMUState i =>
    refine slot (fun c s e1 => ?_) (by simp [changes, Op.fn]) e
    cases begin_ret e1
    rw [← hk.now]; rfl
  case freeFMUState i =>
    refine slot (fun c s e1 => ?_) (by simp [changes, Op.fn]) e
    cases begin_ret e1
    rfl
  case deserializeFMUState b n i =>
    refine slot (fun c s e1 => ?_) (by simp [changes, Op.fn]) e
    have e2 := begin_ret e1
    split at e2
    · cases e2
    · obtain ⟨s', e3, e4⟩ := Outcome.bind_eq_ret.1 e2
      cases e4
      rw [← hk.bytes b]
      unfold Buffer.load at e3
      split at e3
      · cases e3
      · next hb =>
        rw [hb]
        split at e3
        · cases e3
        · split at e3
          · cases e3
          · next hi => cases e3; simp only [Option.bind_some, hi]
  case serializeFMUState i b n =>
    have hX := keep (by simp [changes, Op.fn])
    simp only [step, World.runBuf] at e
    obtain ⟨⟨c, s', buf⟩, e1, e2⟩ := Outcome.bind_eq_ret.1 e
    cases e2
    refine ⟨hX.trans hk.now, hk.saved, fun j => ?_⟩
    simp only [Mem.after]
    split
    · have e2 := begin_ret e1
      have hs := hk.saved i
      revert e2 hs
      cases w.slots i with
      | none => intro e2 hs; cases e2
      | some s =>
        intro e2 hs
        simp only at e2
        split at e2
        · cases e2
        · obtain ⟨b', e3, e4⟩ := Outcome.bind_eq_ret.1 e2
          cases e4
          unfold Buffer.store at e3
          split at e3
          · cases e3
          · split at e3
            · cases e3
            · cases e3; exact hs
    · exact hk.bytes j
  all_goals
    show Tracks h w' { k with now := _ }
    have hn := ((keep (by simp [changes, Op.fn])).trans hk.now)
    simp only [step] at e
    exact inst e hn

theorem run_held (h : Holder m t r start) (hm : OkOrError m) {fuel : Nat} (ops : List (Op F)) :
    ∀ {w w' : World F D} {k : Mem (t.Val F)} {outs}, Tracks h w k → run m fuel w ops = .ret (w', outs) →
    (∀ p ∈ outs, p.1 = .OK) → Tracks h w' (ops.foldl (Mem.after r start) k) := by
  induction ops with
  | nil => intro w w' k outs hk e _; cases e; exact hk
  | cons op ops ih =>
    intro w w' k outs hk e hs
    rw [run] at e
    obtain ⟨⟨w1, s, o⟩, e1, e⟩ := Outcome.bind_eq_ret.1 e
    obtain ⟨⟨w2, l⟩, e2, e⟩ := Outcome.bind_eq_ret.1 e
    cases e
    have := hs (s, o) (by simp)
    simp only at this
    subst this
    exact ih (step_held h hm hk e1) e2 fun p hp => hs p (by simp [hp])

theorem initial_held (h : Holder m t r start) {it : IType} {c : Comp F D} (hc : New m it c) {w : World F D}
    (hw : w.Initial c) : Tracks h w (Mem.new start) := by
  refine ⟨?_, fun i => by rw [hw.slots]; rfl, fun b => ?_⟩
  · rw [hw.inst]
    obtain ⟨_, _, _, _, _, _, _, c₀, _, _, _, _, _, _, e, rfl⟩ := hc.created
    exact (createModelInstance_sel h e :)
  · have := hw.bufs b
    cases hb : w.bufs b with
    | none => rfl
    | some x => simp [this x hb]; rfl

end FMI3
end Verif
