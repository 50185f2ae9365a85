import Verif.Lemmas.Held

/-!
# Following the data of an instance through a history

`Tracker m R start upd`: a successful call of a function that neither resets the instance nor handles
saved states changes data that is described by `v` to data described by `upd v op`.
-/

set_option linter.unusedSectionVars false

namespace Verif.FMI3
variable {F D V : Type} [Arith F] [HasInf F] {m : Model F D}

/-- The functions that handle saved states or reset the instance. -/
def saving (fn : Fn) : Bool :=
  fn ∈ [Fn.reset, .getFMUState, .setFMUState, .freeFMUState, .serializeFMUState, .deserializeFMUState]

structure Tracker (m : Model F D) (R : D → V → Prop) (start : V) (upd : V → Op F → V) : Prop where
  start : ∀ ctx mv, R (m.setStartValues ctx mv).data start
  step : ∀ {fuel w w' op o v}, saving op.fn = false → step m fuel w op = .ret (w', .OK, o) →
    R w.inst.mv.data v → R w'.inst.mv.data (upd v op)

/-- The memory agrees with the world. -/
structure Knows (R : D → V → Prop) (w : World F D) (k : Mem V) : Prop where
  now : R w.inst.mv.data k.now
  saved : ∀ i c, w.slots i = some c → ∃ v, k.saved i = some v ∧ R c.mv.data v
  bytes : ∀ b x c, w.bufs b = some x → x.image = some c → ∃ v, k.bytes b = some v ∧ R c.mv.data v

theorem runSlot_ret {w w' : World F D} {i : Nat} {x : Res F D (Option (Comp F D))} {s o}
    (e : w.runSlot i x = .ret (w', s, o)) :
    ∃ c v, x = .ret (c, s, v) ∧ w' = { w with inst := c, slots := fun j => if j = i then v else w.slots j } := by
  unfold World.runSlot at e
  obtain ⟨⟨c, s', b⟩, e1, e2⟩ := Outcome.bind_eq_ret.1 e
  cases e2
  exact ⟨c, b, e1, rfl⟩

variable {R : D → V → Prop} {start : V} {upd : V → Op F → V}

theorem step_knows (h : Tracker m R start upd) {fuel : Nat} {w w' : World F D} {k : Mem V}
    (hk : Knows R w k) {op : Op F} {o : Out F} (e : step m fuel w op = .ret (w', .OK, o)) :
    Knows R w' (memAfter start upd k op) := by
  have inst : ∀ {β : Type} {x : Res F D β} {out : β → Out F} {v : V}, w.run x out = .ret (w', .OK, o) →
      R w'.inst.mv.data v → Knows R w' { k with now := v } := by
    intro β x out v e1 e2
    obtain ⟨c, b, -, rfl⟩ := run_ret e1
    exact ⟨e2, hk.saved, hk.bytes⟩
  have slot : ∀ {i : Nat} {x : Res F D (Option (Comp F D))} {v : Option V},
      (∀ c s, x = .ret (c, .OK, s) → c.mv.data = w.inst.mv.data ∧
        ∀ c', s = some c' → ∃ u, v = some u ∧ R c'.mv.data u) →
      w.runSlot i x = .ret (w', .OK, o) →
      Knows R w' { k with saved := fun j => if j = i then v else k.saved j } := by
    intro i x v hv e1
    obtain ⟨c, s, e2, rfl⟩ := runSlot_ret e1
    obtain ⟨h1, h2⟩ := hv _ _ e2
    refine ⟨by simpa only [h1] using hk.now, fun j c' hj => ?_, hk.bytes⟩
    simp only at hj ⊢
    by_cases hji : j = i
    · rw [if_pos hji] at hj ⊢; exact h2 _ hj
    · rw [if_neg hji] at hj ⊢; exact hk.saved j _ hj
  cases op
  case reset =>
    simp only [step] at e
    refine inst e ?_
    obtain ⟨c, b, e1, rfl⟩ := run_ret e
    have := begin_ret e1
    cases this
    exact h.start _ _
  case setFMUState i =>
    simp only [step] at e
    refine inst e ?_
    obtain ⟨c, b, e1, rfl⟩ := run_ret e
    have e2 := begin_ret e1
    have hs := hk.saved i
    revert e2 hs
    cases w.slots i with
    | none => intro e2 hs; cases e2
    | some s =>
      intro e2 hs
      cases e2
      obtain ⟨v, h1, h2⟩ := hs s rfl
      rw [h1]
      exact h2
  case getFMUState i =>
    refine slot (fun c s e1 => ?_) e
    cases begin_ret e1
    exact ⟨rfl, fun c' h => by cases h; exact ⟨_, rfl, hk.now⟩⟩
  case freeFMUState i =>
    refine slot (fun c s e1 => ?_) e
    cases begin_ret e1
    exact ⟨rfl, fun c' h => by cases h⟩
  case deserializeFMUState b n i =>
    refine slot (fun c s e1 => ?_) e
    have e2 := begin_ret e1
    split at e2
    · cases e2
    · obtain ⟨s', e3, e4⟩ := Outcome.bind_eq_ret.1 e2
      cases e4
      refine ⟨rfl, fun c' hc => ?_⟩
      cases hc
      unfold Buffer.load at e3
      split at e3
      · cases e3
      · next hb =>
        split at e3
        · cases e3
        · split at e3
          · cases e3
          · next hi => cases e3; exact hk.bytes b _ _ hb hi
  case serializeFMUState i b n =>
    simp only [step, World.runBuf] at e
    obtain ⟨⟨c, s', buf⟩, e1, e2⟩ := Outcome.bind_eq_ret.1 e
    cases e2
    have e2 := begin_ret e1
    have hs := hk.saved i
    revert e2 hs
    cases w.slots i with
    | none => intro e2 hs; cases e2
    | some s =>
      intro e2 hs
      simp only at e2
      split at e2
      · cases e2
      · obtain ⟨b', e3, e4⟩ := Outcome.bind_eq_ret.1 e2
        cases e4
        refine ⟨hk.now, hk.saved, fun j x c' hx hi => ?_⟩
        simp only [memAfter] at hx ⊢
        by_cases hj : j = b
        · rw [if_pos hj] at hx ⊢
          unfold Buffer.store at e3
          split at e3
          · cases e3
          · split at e3
            · cases e3
            · cases e3; cases hx; cases hi; exact hs _ rfl
        · rw [if_neg hj] at hx ⊢
          exact hk.bytes j _ _ hx hi
  all_goals
    show Knows R w' { k with now := _ }
    have hn := h.step (by rfl) e hk.now
    simp only [step] at e
    exact inst e hn

theorem run_knows (h : Tracker m R start upd) {fuel : Nat} (ops : List (Op F)) :
    ∀ {w w' : World F D} {k : Mem V} {outs}, Knows R w k → run m fuel w ops = .ret (w', outs) →
    (∀ p ∈ outs, p.1 = .OK) → Knows R w' (ops.foldl (memAfter start upd) k) := by
  induction ops with
  | nil => intro w w' k outs hk e _; cases e; exact hk
  | cons op ops ih =>
    intro w w' k outs hk e hs
    rw [run] at e
    obtain ⟨⟨w1, s, o⟩, e1, e⟩ := Outcome.bind_eq_ret.1 e
    obtain ⟨⟨w2, l⟩, e2, e⟩ := Outcome.bind_eq_ret.1 e
    cases e
    have := hs (s, o) (by simp)
    simp only at this
    subst this
    exact ih (step_knows h hk e1) e2 fun p hp => hs p (by simp [hp])

theorem initial_knows (h : Tracker m R start upd) {it : IType} {c : Comp F D} (hc : New m it c) {w : World F D}
    (hw : w.Initial c) : Knows R w (Mem.new start) := by
  refine ⟨?_, fun i c' hc' => by simp [hw.slots] at hc', fun b x c' hb hi => by simp [hw.bufs b x hb] at hi⟩
  rw [hw.inst]
  obtain ⟨_, _, _, _, _, _, _, c₀, _, _, _, _, _, _, e, rfl⟩ := hc.created
  unfold createModelInstance at e
  simp only at e
  repeat' split at e
  all_goals first | (simp at e; done) | skip
  obtain ⟨e, -⟩ := Prod.mk.inj e
  cases e
  exact h.start _ _

/-- The functions in `B` of `model.c` may violate a property of the data; the others keep it. -/
theorem data_inv {B : List MFn} {P : D → Prop}
    (hB : ∀ {f ctx mv mv' s}, f ∉ B → P mv.data → MStep m f ctx mv mv' s → P mv'.data) (hd : ∀ f ∈ MFn.solver, f ∉ B) :
    CallInvX (fun fn => fn = .reset ∨ fn = .setFMUState ∨ ∃ f ∈ fn.calls, f ∈ B) (fun f => f ∉ B) m (fun _ => True)
      fun c => P c.mv.data where
  lift hp hf e := hB hf hp e
  log msg hp := by
    simp only [Comp.logError, Verif.logError]
    split <;> exact hp
  dirty _ hp := hp
  calls fn hX f hf h := hX (.inr (.inr ⟨f, hf, h⟩))
  step _ :=
    { lift := fun hp hf e => hB (hd _ hf) hp e
      log := fun msg hp => by
        simp only [Comp.logError, Verif.logError]
        split <;> exact hp
      dirty := fun _ hp => hp
      adv := fun hp _ => hp
      iu := fun hp _ => hp
      ncp := fun _ hp => hp
      x := fun _ hp => hp
      dx := fun _ hp => hp
      z := fun _ hp => hp
      prez := fun _ hp => hp }
  nx _ _ h := h
  nz _ _ h := h
  prez _ _ _ h := h
  term h := h
  enterInit _ _ _ _ h _ := h
  enterConfig _ _ h _ := h
  exitConfig _ _ h _ := h
  reset h := absurd (.inl rfl) h
  restore h := absurd (.inr (.inl rfl)) h
  enterEvent _ _ h _ := h
  enterCT _ _ h _ := h
  setTime _ _ _ h _ := h
  exitInit _ _ h _ := h
  enterStep _ _ h _ := h

/-- A call that calls only functions of `model.c` that leave the data alone. -/
theorem step_data (hm : OkOrError m) {B : List MFn}
    (hB : ∀ {f ctx mv mv' s}, f ∉ B → MStep m f ctx mv mv' s → mv'.data = mv.data)
    (hd : ∀ f ∈ MFn.solver, f ∉ B) {fuel : Nat} {w w' : World F D} {op : Op F} {s o}
    (hX : ¬ (op.fn = .reset ∨ op.fn = .setFMUState ∨ ∃ f ∈ op.fn.calls, f ∈ B))
    (e : step m fuel w op = .ret (w', s, o)) : w'.inst.mv.data = w.inst.mv.data :=
  step_keepX hm (data_inv (P := fun d => d = w.inst.mv.data) (fun hf hp e => (hB hf e).trans hp) hd)
    (fun _ _ _ _ => trivial) rfl (fun _ _ _ _ h => h) hX _ e

/-- Calls that call only functions of `model.c` that keep a property of the data. -/
theorem run_data (hm : OkOrError m) {B : List MFn} {P : D → Prop}
    (hB : ∀ {f ctx mv mv' s}, f ∉ B → P mv.data → MStep m f ctx mv mv' s → P mv'.data)
    (hd : ∀ f ∈ MFn.solver, f ∉ B) {fuel : Nat} {w w' : World F D} {ops : List (Op F)} {outs}
    (hX : ∀ op ∈ ops, ¬ (op.fn = .reset ∨ op.fn = .setFMUState ∨ ∃ f ∈ op.fn.calls, f ∈ B)) (hp : P w.inst.mv.data)
    (e : run m fuel w ops = .ret (w', outs)) : P w'.inst.mv.data :=
  run_keepX hm (data_inv hB hd) (fun {_} _ _ h => h) ops hp hX _ e

theorem Fn.calls_partition {fn : Fn} : MFn.partition ∈ fn.calls ↔ fn = .activateModelPartition := by
  cases fn <;> simp [Fn.calls]
theorem Fn.calls_getClock {fn : Fn} : MFn.getClock ∈ fn.calls ↔ fn = .getClock := by
  cases fn <;> simp [Fn.calls]
theorem Fn.calls_getInterval {fn : Fn} : MFn.getInterval ∈ fn.calls ↔ fn = .getIntervalDecimal := by
  cases fn <;> simp [Fn.calls]

end Verif.FMI3
