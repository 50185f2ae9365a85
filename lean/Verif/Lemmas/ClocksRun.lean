import Verif.Lemmas.Track
import Verif.Lemmas.LensReads
import Verif.Lemmas.ModelEff
import Verif.Spec.Clocks

/-!
# The data of Clocks after a history
-/

set_option linter.unusedSectionVars false

namespace Verif
variable {F D : Type} [Arith F] [HasInf F]

namespace Clocks

/-- The data is what the calls make of it. -/
structure Describes (d : Data F) (k : Counts) : Prop where
  one : d.inClock1Ticks = k.one
  two : d.inClock2Ticks = k.two
  three : d.inClock3Ticks = k.three
  total : d.totalInClockTicks = k.total
  tick : d.outClock = if k.tick then 1 else 0
  five : k.tick = true → k.total % 5 = 0
  news : d.inClock3_qualifier = k.qualifier
  interval : d.inClock3_interval = Arith.lit 0
  input : d.input2 = k.input
  result : d.result2 = k.result
  output : d.output3 = if k.three = 0 then 0 else 1000

theorem toInt32_ret {v x : Int} (e : toInt32 v = .ret x) : x = v := by
  unfold toInt32 at e; split at e <;> cases e; rfl

theorem callClockUpdate_data {ctx : Ctx F} {mv mv' : MV F (Data F)} (e : callClockUpdate ctx mv = .ret mv') :
    mv'.data = mv.data := by
  unfold callClockUpdate at e; split at e <;> cases e; rfl

theorem ite_data {P : Prop} [Decidable P] {ctx : Ctx F} {mv mv' : MV F (Data F)}
    (e : (if P then callClockUpdate ctx mv else .ret mv) = .ret mv') : mv'.data = mv.data := by
  split at e
  · exact callClockUpdate_data e
  · cases e; rfl

theorem callLock_data {ctx : Ctx F} {mv : MV F (Data F)} : (callLock ctx mv).data = mv.data := by
  unfold callLock; split <;> rfl
theorem callUnlock_data {ctx : Ctx F} {mv : MV F (Data F)} : (callUnlock ctx mv).data = mv.data := by
  unfold callUnlock; split <;> rfl

/-- The effect of the activation of a model partition on the data. -/
def activated (d : Data F) (clock : Nat) (t : F) : Data F :=
  if clock = 1001 then
    setOutClock { d with
      inClock1Ticks := d.inClock1Ticks + 1, totalInClockTicks := d.totalInClockTicks + 1
      inClock3_qualifier := if Arith.toInt t = some 4 then 2 else d.inClock3_qualifier
      inClock3_interval := if Arith.toInt t = some 4 then Arith.lit 0 else d.inClock3_interval }
  else if clock = 1002 then
    setOutClock { d with
      inClock2Ticks := d.inClock2Ticks + 1, totalInClockTicks := d.totalInClockTicks + 1
      result2 := d.result2 + d.input2, input2 := 0 }
  else
    setOutClock { d with
      inClock3Ticks := d.inClock3Ticks + 1, totalInClockTicks := d.totalInClockTicks + 1, output3 := 1000 }

theorem activate_data {ctx : Ctx F} {mv mv' : MV F (Data F)} {clock : Nat} {t : F} {s u}
    (e : activateModelPartition ctx mv clock t = .ret (mv', s, u)) :
    s = .OK ∧ clock ∈ [1001, 1002, 1003] ∧ mv'.data = activated mv.data clock t ∨
      s = .Error ∧ mv'.data = mv.data := by
  unfold activateModelPartition at e
  split at e
  · obtain ⟨mv1, e1, e⟩ := Outcome.bind_eq_ret.1 e
    cases e
    refine .inl ⟨rfl, by decide, ?_⟩
    unfold partition1 at e1
    obtain ⟨t1, h1, e1⟩ := Outcome.bind_eq_ret.1 e1
    obtain ⟨tot, h2, e1⟩ := Outcome.bind_eq_ret.1 e1
    rw [toInt32_ret h1, toInt32_ret h2] at e1
    split at e1
    · cases e1
    · next it hit =>
      simp only at e1
      rw [ite_data e1]
      simp only [activated, hit, Option.some.injEq, if_true]
      by_cases h4 : it = 4 <;> simp [h4]
  · obtain ⟨mv1, e1, e⟩ := Outcome.bind_eq_ret.1 e
    cases e
    refine .inl ⟨rfl, by decide, ?_⟩
    unfold partition2 at e1
    obtain ⟨t1, h1, e1⟩ := Outcome.bind_eq_ret.1 e1
    obtain ⟨tot, h2, e1⟩ := Outcome.bind_eq_ret.1 e1
    obtain ⟨res, h3, e1⟩ := Outcome.bind_eq_ret.1 e1
    rw [toInt32_ret h1, toInt32_ret h2, toInt32_ret h3] at e1
    rw [ite_data e1, callUnlock_data, callLock_data]
    simp [activated]
  · obtain ⟨mv1, e1, e⟩ := Outcome.bind_eq_ret.1 e
    cases e
    refine .inl ⟨rfl, by decide, ?_⟩
    unfold partition3 at e1
    obtain ⟨t1, h1, e1⟩ := Outcome.bind_eq_ret.1 e1
    obtain ⟨tot, h2, e1⟩ := Outcome.bind_eq_ret.1 e1
    rw [toInt32_ret h1, toInt32_ret h2] at e1
    rw [ite_data e1, callUnlock_data, callLock_data]
    simp [activated, callLock_data]
  · refine .inr ?_
    unfold failM Verif.logError at e
    split at e <;> cases e <;> exact ⟨rfl, rfl⟩

theorem Describes.activated {d : Data F} {k : Counts} (h : Describes d k) {clock : Nat}
    (hc : clock ∈ [1001, 1002, 1003]) (t : F) : Describes (activated d clock t) (k.activate clock t) := by
  have tick : ∀ n : Nat, n = k.total + 1 →
      (if d.outClock = 0 ∧ (d.totalInClockTicks + 1).tmod 5 = 0 then (1 : Int) else 0) =
        if decide (n % 5 = 0) then 1 else 0 := by
    rintro n rfl
    have e1 : (d.totalInClockTicks + 1).tmod 5 = ((k.total + 1) % 5 : Nat) := by
      rw [h.total, Int.tmod_eq_emod_of_nonneg (by omega)]; omega
    rw [e1, h.tick]
    by_cases h5 : (k.total + 1) % 5 = 0
    · have : k.tick = false := by
        cases hk : k.tick with
        | false => rfl
        | true => have := h.five hk; omega
      simp [h5, this]
    · simp only [h5, decide_false, Bool.false_eq_true, if_false]
      rw [if_neg]
      rintro ⟨-, h6⟩
      omega
  simp only [List.mem_cons, List.not_mem_nil, or_false] at hc
  rcases hc with rfl | rfl | rfl
  · refine ⟨by simp [Clocks.activated, setOutClock, Counts.activate, Counts.ticked, h.one], h.two, h.three, ?_, ?_, ?_, ?_, ?_,
      h.input, h.result, h.output⟩
    · simp [Clocks.activated, setOutClock, Counts.activate, Counts.ticked, Counts.total, h.total]; omega
    · exact tick _ (by simp [Counts.total]; omega)
    · exact fun h => of_decide_eq_true h
    · simp only [Clocks.activated, setOutClock, Counts.activate, Counts.ticked, Counts.qualifier, if_true]
      by_cases h4 : Arith.toInt t = some 4
      · simp [h4]
      · simp only [h4, if_false]; exact h.news
    · simp only [Clocks.activated, setOutClock, if_true]
      split
      · rfl
      · exact h.interval
  · refine ⟨h.one, by simp [Clocks.activated, setOutClock, Counts.activate, Counts.ticked, h.two], h.three, ?_, ?_, ?_, h.news, h.interval,
      rfl, ?_, h.output⟩
    · simp [Clocks.activated, setOutClock, Counts.activate, Counts.ticked, Counts.total, h.total]; omega
    · exact tick _ (by simp [Counts.total]; omega)
    · exact fun h => of_decide_eq_true h
    · simp [Clocks.activated, setOutClock, Counts.activate, Counts.ticked, h.result, h.input]
  · refine ⟨h.one, h.two, by simp [Clocks.activated, setOutClock, Counts.activate, Counts.ticked, h.three], ?_, ?_, ?_, h.news, h.interval,
      h.input, h.result, ?_⟩
    · simp [Clocks.activated, setOutClock, Counts.activate, Counts.ticked, Counts.total, h.total]; omega
    · exact tick _ (by simp [Counts.total]; omega)
    · exact fun h => of_decide_eq_true h
    · simp [Clocks.activated, setOutClock, Counts.activate, Counts.ticked]

theorem getClock_ret {ctx : Ctx F} {mv mv' : MV F (Data F)} {vr : Nat} {old v : Bool}
    (e : getClock ctx mv vr old = .ret (mv', .OK, v)) :
    mv'.data = { mv.data with outClock := 0 } ∧ v = decide (mv.data.outClock ≠ 0) := by
  unfold getClock at e
  split at e
  · cases e; exact ⟨rfl, rfl⟩
  · cases e

theorem getInterval_ret {ctx : Ctx F} {mv mv' : MV F (Data F)} {vr : Nat} {oi : F} {oq : Int} {v}
    (e : getInterval ctx mv vr oi oq = .ret (mv', .OK, v)) :
    mv'.data = { mv.data with inClock3_qualifier := if mv.data.inClock3_qualifier = 2 then 1 else mv.data.inClock3_qualifier } := by
  unfold getInterval at e
  split at e
  · split at e
    · next h => cases e; simp [h]
    · next h => cases e; simp [h]
  · cases e

/-- What changes the data of Clocks. -/
def moving : List MFn := [MFn.set, .getClock, .getInterval, .partition]

theorem step_still {f : MFn} {ctx : Ctx F} {mv mv' : MV F (Data F)} {s} (hf : f ∉ moving)
    (e : MStep (model : Model F (Data F)) f ctx mv mv' s) : mv'.data = mv.data := by
  have fail : ∀ {β : Type} {mv : MV F (Data F)} {msg : String} {b b' : β} {s mv'},
      failM ctx mv msg b = .ret (mv', s, b') → mv'.data = mv.data := by
    intro β mv msg b b' s mv' e
    unfold failM Verif.logError at e
    split at e <;> cases e <;> rfl
  cases e
  case set => simp [moving] at hf
  case getClock => simp [moving] at hf
  case getInterval => simp [moving] at hf
  case partition => simp [moving] at hf
  case get t vr p n i b e =>
    have nv : ∀ {β : Type} {b b' : β} {k : MRes F (Data F) β}, assertNValues ctx mv 1 n i b k = .ret (mv', s, b') →
        (k = .ret (mv', s, b') → mv'.data = mv.data) → mv'.data = mv.data := by
      intro β b b' k e hk
      unfold assertNValues at e
      split at e
      · exact fail e
      · exact hk e
    cases t <;> simp only [model] at e
    case float64 =>
      refine nv e fun e => ?_
      split at e
      · obtain ⟨p, -, e⟩ := Outcome.bind_eq_ret.1 e; cases e; rfl
      · exact fail e
    case int32 =>
      refine nv e fun e => ?_
      split at e
      · obtain ⟨p, -, e⟩ := Outcome.bind_eq_ret.1 e; cases e; rfl
      · exact fail e
    all_goals exact fail e
  case event eu b h e => cases h; cases e; rfl
  case outDeriv h e => cases h
  all_goals
    rename_i e
    first
    | (cases e; rfl)
    | exact fail e
    | (dsimp only [model, vecStub, assertSize] at e; split at e <;> first | exact fail e | (cases e; rfl))

/-- The effect of a setter on `input2`. -/
theorem set_ret {t : VType} {ctx : Ctx F} {mv mv' : MV F (Data F)} {vr : Nat} {p : Ptr (t.Val F)} {n i j : Nat}
    (e : (model : Model F (Data F)).set t ctx mv vr p n i = .ret (mv', .OK, j)) :
    ∃ v, p.read i = .ret v ∧ j = i + 1 ∧
      mv'.data = { mv.data with input2 := (assign .int32 2006 mv.data.input2 ⟨t, vr, v⟩ : Int) } := by
  cases t
  case int32 =>
    simp only [model, setInt32, assertNValues] at e
    split at e
    · cases e
    · split at e
      · obtain ⟨v, e1, e⟩ := Outcome.bind_eq_ret.1 e
        cases e
        exact ⟨v, e1, rfl, rfl⟩
      · cases e
  all_goals cases e

theorem setLoop_ret {t : VType} {vr : Ptr Nat} {values : Ptr (t.Val F)}
    {nv : Nat} (n : Nat) : ∀ {i : Nat} {c c' : Comp F (Data F)} {j : Nat},
    Verif.setLoop model t vr values nv n i c .OK i = .ret (c', .OK, j) →
    c'.mv.data = { c.mv.data with input2 := ((((((vr.getD []).drop i).zip ((values.getD []).drop i)).take n).map
      fun p => (⟨t, p⟩ : Assignment F)).foldl (assign .int32 2006) c.mv.data.input2 : Int) } := by
  induction n with
  | zero => intro i c c' j e; cases e; rfl
  | succ n ih =>
    intro i c c' j e
    rw [Verif.setLoop] at e
    obtain ⟨r', e1, e⟩ := Outcome.bind_eq_ret.1 e
    obtain ⟨mv', i', e2, e⟩ := lift_inv Clocks.eff.okOrError (fun _ _ _ e => .set e) e
    obtain ⟨v, e3, rfl, e4⟩ := set_ret e2
    obtain ⟨l1, rfl, h1⟩ := Ptr.read_inv e1
    obtain ⟨l2, rfl, h2⟩ := Ptr.read_inv e3
    rw [ih e]
    simp only [Option.getD_some] at *
    rw [h1, h2, e4]
    rfl

theorem setVars_ret {t : VType} {vr : Ptr Nat} {n nv : Nat}
    {v : Ptr (t.Val F)} {c c' : Comp F (Data F)} {u : Unit} (e : FMI3.setVars model t c vr n v nv = .ret (c', .OK, u)) :
    c'.mv.data = { c.mv.data with input2 := ((FMI3.Op.set t vr n v nv).assignments.foldl (assign .int32 2006)
      c.mv.data.input2 : Int) } := by
  unfold FMI3.setVars at e
  replace e := FMI3.begin_ret e
  unfold assertNonNull at e
  split at e
  · next h0 => subst h0; cases e; rfl
  · split at e
    · cases e
    · obtain ⟨⟨c1, st, j⟩, e1, e2⟩ := Outcome.bind_eq_ret.1 e
      simp only at e2
      split at e2
      · next hs => cases e2; simp at hs
      · split at e2
        · cases e2
        · cases e2; exact setLoop_ret n e1

theorem getClockLoop_ret {vr : Ptr Nat} (n : Nat) : ∀ {i : Nat} {c c' : Comp F (Data F)} {p p' : Ptr Bool},
    FMI3.getClockLoop model vr n i c .OK p = .ret (c', .OK, p') →
    c'.mv.data = if n = 0 then c.mv.data else { c.mv.data with outClock := 0 } := by
  induction n with
  | zero => intro i c c' p p' e; cases e; rfl
  | succ n ih =>
    intro i c c' p p' e
    rw [FMI3.getClockLoop] at e
    obtain ⟨r', -, e⟩ := Outcome.bind_eq_ret.1 e
    obtain ⟨old, -, e⟩ := Outcome.bind_eq_ret.1 e
    obtain ⟨⟨c1, s, v⟩, e1, e⟩ := Outcome.bind_eq_ret.1 e
    obtain ⟨p1, -, e⟩ := Outcome.bind_eq_ret.1 e
    obtain ⟨mv, e2, rfl⟩ := lift_eq_ret.1 e1
    have hs : s = .OK ∨ s = .Error := Clocks.eff.okOrError _ _ _ _ _ (.getClock e2)
    rcases hs with rfl | rfl
    · rw [ih e, (getClock_ret e2).1]
      split <;> rfl
    · cases e

theorem getIntervalLoop_ret {vr : Ptr Nat} (n : Nat) : ∀ {i : Nat} {c c' : Comp F (Data F)} {p p' : Ptr F × Ptr Int},
    FMI3.getIntervalLoop model vr n i c .OK p = .ret (c', .OK, p') →
    c'.mv.data = if n = 0 then c.mv.data else { c.mv.data with
      inClock3_qualifier := if c.mv.data.inClock3_qualifier = 2 then 1 else c.mv.data.inClock3_qualifier } := by
  induction n with
  | zero => intro i c c' p p' e; cases e; rfl
  | succ n ih =>
    rintro i c c' ⟨p1, p2⟩ p' e
    rw [FMI3.getIntervalLoop] at e
    obtain ⟨r', -, e⟩ := Outcome.bind_eq_ret.1 e
    obtain ⟨oi, -, e⟩ := Outcome.bind_eq_ret.1 e
    obtain ⟨oq, -, e⟩ := Outcome.bind_eq_ret.1 e
    obtain ⟨⟨c1, s, v1, v2⟩, e1, e⟩ := Outcome.bind_eq_ret.1 e
    obtain ⟨q1, -, e⟩ := Outcome.bind_eq_ret.1 e
    obtain ⟨q2, -, e⟩ := Outcome.bind_eq_ret.1 e
    obtain ⟨mv, e2, rfl⟩ := lift_eq_ret.1 e1
    have hs : s = .OK ∨ s = .Error := Clocks.eff.okOrError _ _ _ _ _ (.getInterval e2)
    rcases hs with rfl | rfl
    · rw [ih e, getInterval_ret e2]
      by_cases h2 : c.mv.data.inClock3_qualifier = 2 <;> simp [h2]
    · cases e

open FMI3 in
/-- The data follows the calls. -/
theorem tracker : Tracker (model : Model F (Data F)) Describes .start Counts.after where
  start _ _ := ⟨rfl, rfl, rfl, rfl, rfl, (fun h => by cases h), rfl, rfl, rfl, rfl, rfl⟩
  step {fuel w w' op o v} hs e h := by
    have quiet : ¬ (op.fn = .reset ∨ op.fn = .setFMUState ∨ ∃ f ∈ op.fn.calls, f ∈ moving) →
        Describes w'.inst.mv.data v := by
      intro hX
      rw [step_data Clocks.eff.okOrError (fun hf e => step_still hf e) (by simp [MFn.solver, moving]) hX e]
      exact h
    cases op
    case activateModelPartition clock t =>
      simp only [step] at e
      obtain ⟨c, b, e1, rfl⟩ := run_ret e
      unfold FMI3.activateModelPartition callLast at e1
      replace e1 := begin_ret e1
      obtain ⟨mv', a, e2, e3⟩ := lift_inv Clocks.eff.okOrError (f := .partition) (fun _ _ _ e => .partition e) e1
      cases e3
      rcases activate_data e2 with ⟨-, hc, hd⟩ | ⟨h, -⟩
      · show Describes mv'.data _
        rw [hd]
        exact h.activated hc t
      · cases h
    case getClock vr n p =>
      simp only [step] at e
      obtain ⟨c, b, e1, rfl⟩ := run_ret e
      have := getClockLoop_ret n (begin_ret e1)
      rw [this]
      simp only [Counts.after]
      split
      · exact h
      · exact ⟨h.one, h.two, h.three, h.total, rfl, (fun h => by cases h), h.news, h.interval, h.input, h.result, h.output⟩
    case getIntervalDecimal vr n p q =>
      simp only [step] at e
      obtain ⟨c, b, e1, rfl⟩ := run_ret e
      have := getIntervalLoop_ret n (begin_ret e1)
      rw [this]
      simp only [Counts.after]
      split
      · exact h
      · refine ⟨h.one, h.two, h.three, h.total, h.tick, h.five, ?_, h.interval, h.input, h.result, h.output⟩
        simp only [h.news, Counts.qualifier]
        cases v.news with
        | none => simp
        | some b => cases b <;> simp
    case set t vr n p nv =>
      simp only [step] at e
      obtain ⟨c, b, e1, rfl⟩ := run_ret e
      rw [setVars_ret e1]
      refine ⟨h.one, h.two, h.three, h.total, h.tick, h.five, h.news, h.interval, ?_, h.result, h.output⟩
      show List.foldl _ w.inst.mv.data.input2 _ = List.foldl _ _ _
      rw [h.input]
    all_goals first
      | (simp [saving, Op.fn] at hs; done)
      | exact quiet (by simp [Op.fn, Fn.calls, moving])

/-- `outClock` changes only when it is read or when a model partition is activated. -/
theorem step_outClock {f : MFn} {ctx : Ctx F} {mv mv' : MV F (Data F)} {s} (hf : f ∉ [MFn.getClock, .partition])
    (e : MStep (model : Model F (Data F)) f ctx mv mv' s) : mv'.data.outClock = mv.data.outClock := by
  by_cases h : f ∉ moving
  · rw [step_still h e]
  · simp only [moving, Classical.not_not, List.mem_cons, List.not_mem_nil, or_false] at h
    simp only [List.mem_cons, List.not_mem_nil, or_false, not_or] at hf
    rcases h with rfl | rfl | rfl | rfl
    · cases e
      next t vr p n i b e =>
      cases t
      case int32 =>
        simp only [model, setInt32, assertNValues] at e
        split at e
        · unfold failM Verif.logError at e; split at e <;> cases e <;> rfl
        · split at e
          · obtain ⟨v, e1, e⟩ := Outcome.bind_eq_ret.1 e
            cases e; rfl
          · unfold failM Verif.logError at e; split at e <;> cases e <;> rfl
      all_goals simp only [model] at e; unfold setStub failM Verif.logError at e; split at e <;> cases e <;> rfl
    · exact absurd rfl hf.1
    · cases e
      next e =>
      simp only [model, getInterval] at e
      split at e
      · split at e <;> cases e <;> rfl
      · unfold failM Verif.logError at e; split at e <;> cases e <;> rfl
    · exact absurd rfl hf.2

/-- The qualifier changes only when it is read or when a model partition is activated. -/
theorem step_qualifier {f : MFn} {ctx : Ctx F} {mv mv' : MV F (Data F)} {s} (hf : f ∉ [MFn.getInterval, .partition])
    (e : MStep (model : Model F (Data F)) f ctx mv mv' s) :
    (mv'.data.inClock3_qualifier, mv'.data.inClock3_interval) = (mv.data.inClock3_qualifier, mv.data.inClock3_interval) := by
  by_cases h : f ∉ moving
  · rw [step_still h e]
  · simp only [moving, Classical.not_not, List.mem_cons, List.not_mem_nil, or_false] at h
    simp only [List.mem_cons, List.not_mem_nil, or_false, not_or] at hf
    rcases h with rfl | rfl | rfl | rfl
    · cases e
      next t vr p n i b e =>
      cases t
      case int32 =>
        simp only [model, setInt32, assertNValues] at e
        split at e
        · unfold failM Verif.logError at e; split at e <;> cases e <;> rfl
        · split at e
          · obtain ⟨v, e1, e⟩ := Outcome.bind_eq_ret.1 e
            cases e; rfl
          · unfold failM Verif.logError at e; split at e <;> cases e <;> rfl
      all_goals simp only [model] at e; unfold setStub failM Verif.logError at e; split at e <;> cases e <;> rfl
    · cases e
      next e =>
      simp only [model, getClock] at e
      split at e
      · cases e; rfl
      · unfold failM Verif.logError at e; split at e <;> cases e <;> rfl
    · exact absurd rfl hf.1
    · exact absurd rfl hf.2

/-- The data of every instance counts its activations. -/
theorem mvInv : MVInv (model : Model F (Data F)) fun mv => ∃ k, Describes mv.data k where
  step {f ctx mv mv' s} := by
    rintro ⟨k, h⟩ e
    by_cases hf : f ∉ moving
    · exact ⟨k, by rw [step_still hf e]; exact h⟩
    · simp only [moving, Classical.not_not, List.mem_cons, List.not_mem_nil, or_false] at hf
      rcases hf with rfl | rfl | rfl | rfl
      · cases e
        next t vr p n i b e =>
        have fail : ∀ {β : Type} {msg : String} {b b' : β}, failM ctx mv msg b = .ret (mv', s, b') →
            ∃ k, Describes mv'.data k := by
          intro β msg b b' e
          unfold failM Verif.logError at e
          split at e <;> cases e <;> exact ⟨k, h⟩
        cases t
        case int32 =>
          simp only [model, setInt32, assertNValues] at e
          split at e
          · exact fail e
          · split at e
            · obtain ⟨v, e1, e⟩ := Outcome.bind_eq_ret.1 e
              cases e
              exact ⟨{ k with input := v }, h.one, h.two, h.three, h.total, h.tick, h.five, h.news, h.interval, rfl, h.result, h.output⟩
            · exact fail e
        all_goals exact fail e
      · cases e
        next vr old b e =>
        simp only [model, getClock] at e
        split at e
        · cases e
          exact ⟨{ k with tick := false }, h.one, h.two, h.three, h.total, rfl, (fun h => by cases h), h.news, h.interval,
            h.input, h.result, h.output⟩
        · unfold failM Verif.logError at e
          split at e <;> cases e <;> exact ⟨k, h⟩
      · cases e
        next vr oi oq b e =>
        simp only [model, getInterval] at e
        split at e
        · split at e
          · cases e
            exact ⟨{ k with news := some false }, h.one, h.two, h.three, h.total, h.tick, h.five, rfl, h.interval,
              h.input, h.result, h.output⟩
          · cases e; exact ⟨k, h⟩
        · unfold failM Verif.logError at e
          split at e <;> cases e <;> exact ⟨k, h⟩
      · cases e
        next vr t b e =>
        rcases activate_data e with ⟨-, hc, hd⟩ | ⟨-, hd⟩
        · exact ⟨_, by rw [hd]; exact h.activated hc t⟩
        · exact ⟨k, by rw [hd]; exact h⟩
  dirty _ h := h
  trace _ h := h
  start _ := ⟨_, tracker.start _ _⟩

theorem described {it : IType} {w : FMI3.World F (Data F)} (hw : FMI3.Reachable model it w) :
    ∃ k, Describes w.inst.mv.data k :=
  (hw.mv Clocks.eff.okOrError mvInv
    ⟨.start, rfl, rfl, rfl, rfl, rfl, (fun h => by cases h), rfl, rfl, rfl, rfl, rfl⟩).inst

end Clocks
end Verif
