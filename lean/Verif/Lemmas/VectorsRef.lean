import Verif.Lemmas.Vectors

/-! # The state vector functions of the Reference FMUs: all FMUs, and bounds of StateSpace -/

set_option linter.unusedSectionVars false

namespace Verif
variable {F D : Type} [Arith F] [HasInf F]

theorem length_one {l : List F} (h : l.length = 1) : ∃ a, l = [a] := List.length_eq_one_iff.1 h
theorem length_two {l : List F} (h : l.length = 2) : ∃ a b, l = [a, b] := by
  match l, h with
  | [a, b], _ => exact ⟨a, b, rfl⟩

theorem ones : ∀ v ∈ [(Arith.lit 1 : F), Arith.lit 1], ∃ q : Rat, 0 < q ∧ v = Arith.lit q := by
  intro v h
  simp only [List.mem_cons, List.not_mem_nil, or_false, or_self] at h
  exact ⟨1, by decide, h⟩
theorem smalls : ∀ v ∈ [(Arith.lit (1 / 10000) : F), Arith.lit (1 / 100)],
    ∃ q : Rat, 0 < q ∧ v = Arith.lit q := by
  intro v h
  simp only [List.mem_cons, List.not_mem_nil, or_false] at h
  rcases h with h | h
  · exact ⟨_, by decide +kernel, h⟩
  · exact ⟨_, by decide +kernel, h⟩

theorem RefFMU2.vectors {m : Model F D} (hm : RefFMU2 m) : m.Vectors fun _ => True := by
  cases hm with
  | bouncingBall =>
    refine .ode BouncingBall.ode (Nat.succ_pos _) [Arith.lit 1, Arith.lit 1] rfl ones (fun ctx mv p n => ⟨_, rfl⟩) (fun h => by cases h) ?_
    intro d l h; obtain ⟨a, b, rfl⟩ := length_two h; rfl
  | dahlquist =>
    refine .ode Dahlquist.ode (Nat.succ_pos _) [Arith.lit 1] rfl (fun v h => ones v (List.mem_cons_of_mem _ h)) (fun ctx mv p n => ⟨_, rfl⟩) (fun _ => rfl) ?_
    intro d l h; obtain ⟨a, rfl⟩ := length_one h; rfl
  | vanDerPol =>
    refine .ode VanDerPol.ode (Nat.succ_pos _) [Arith.lit 1, Arith.lit 1] rfl ones (fun ctx mv p n => ⟨_, rfl⟩) (fun _ => rfl) ?_
    intro d l h; obtain ⟨a, b, rfl⟩ := length_two h; rfl
  | feedthrough => exact .stub rfl rfl rfl rfl rfl rfl rfl
  | resource => exact .stub rfl rfl rfl rfl rfl rfl rfl
  | stair => exact .stub rfl rfl rfl rfl rfl rfl rfl

namespace StateSpace

theorem InBounds.log {ctx : Ctx F} {mv : MV F (Data F)} {msg : String} (h : InBounds mv) :
    InBounds (logError ctx mv msg) := by
  unfold logError
  split <;> exact h

theorem InBounds.fail {β : Type} {ctx : Ctx F} {mv mv' : MV F (Data F)} {msg : String} {b b' : β} {s}
    (h : InBounds mv) (e : failM ctx mv msg b = .ret (mv', s, b')) : InBounds mv' := by
  cases e; exact h.log

theorem InBounds.notNull {α β : Type} {ctx : Ctx F} {mv mv' : MV F (Data F)} {p : Option α} {b b' : β} {s k}
    (h : InBounds mv) (e : assertNotNull ctx mv p b k = .ret (mv', s, b'))
    (hk : k = .ret (mv', s, b') → InBounds mv') : InBounds mv' := by
  unfold assertNotNull at e
  split at e
  · exact h.fail e
  · exact hk e

theorem InBounds.nValues {β : Type} {ctx : Ctx F} {mv mv' : MV F (Data F)} {a n i : Nat} {b b' : β} {s k}
    (h : InBounds mv) (e : assertNValues ctx mv a n i b k = .ret (mv', s, b'))
    (hk : k = .ret (mv', s, b') → InBounds mv') : InBounds mv' := by
  unfold assertNValues at e
  split at e
  · exact h.fail e
  · exact hk e

theorem InBounds.checkNx {ctx : Ctx F} {mv mv' : MV F (Data F)} {p n b' s k}
    (h : InBounds mv) (e : checkNx ctx mv p n k = .ret (mv', s, b'))
    (hk : k = .ret (mv', s, b') → InBounds mv') : InBounds mv' := by
  unfold StateSpace.checkNx at e
  split at e
  · exact h.fail e
  · exact hk e

theorem InBounds.guarded {β : Type} {d : Data F} {k : Outcome β} {r}
    (e : guarded d k = .ret r) : inBounds d = true ∧ k = .ret r := by
  unfold StateSpace.guarded at e
  split at e
  · exact ⟨by assumption, e⟩
  · cases e

theorem InBounds.calc {mv mv' : MV F (Data F)} (e : calculateValues mv = .ret mv') : InBounds mv' := by
  obtain ⟨h, e⟩ := InBounds.guarded e
  cases e; exact h

theorem InBounds.get {ctx : Ctx F} {mv mv' : MV F (Data F)} {vr p n i s b} (h : InBounds mv)
    (e : getFloat64 ctx mv vr p n i = .ret (mv', s, b)) : InBounds mv' := by
  refine h.notNull e fun e => ?_
  obtain ⟨mv1, e1, e⟩ := Outcome.bind_eq_ret.1 e
  have h1 := InBounds.calc e1
  have hput : ∀ {l : List F}, putBlock ctx mv1 p n i l = .ret (mv', s, b) → InBounds mv' := by
    intro l e
    refine h1.nValues e fun e => ?_
    obtain ⟨_, -, e⟩ := Outcome.bind_eq_ret.1 e
    cases e; exact h1
  simp only at e
  split at e
  · refine h1.nValues e fun e => ?_
    obtain ⟨_, -, e⟩ := Outcome.bind_eq_ret.1 e
    cases e; exact h1
  all_goals first | exact hput e | exact h1.fail e

theorem InBounds.getU {ctx : Ctx F} {mv mv' : MV F (Data F)} {vr p n i s b} (h : InBounds mv)
    (e : getUInt64 ctx mv vr p n i = .ret (mv', s, b)) : InBounds mv' := by
  refine h.notNull e fun e => ?_
  have hput : ∀ {v : Int}, putScalar ctx mv p n i v = .ret (mv', s, b) → InBounds mv' := by
    intro l e
    refine h.nValues e fun e => ?_
    obtain ⟨_, -, e⟩ := Outcome.bind_eq_ret.1 e
    cases e; exact h
  split at e
  all_goals first | exact hput e | exact h.fail e

theorem InBounds.set {ctx : Ctx F} {mv mv' : MV F (Data F)} {vr p n i s b} (h : InBounds mv)
    (e : setFloat64 ctx mv vr p n i = .ret (mv', s, b)) : InBounds mv' := by
  refine h.notNull e fun e => ?_
  have htake : ∀ {k : Nat} {upd : List F → Data F}, (∀ l, inBounds (upd l) = true) →
      takeBlock ctx mv p n i k upd = .ret (mv', s, b) → InBounds mv' := by
    intro k upd hu e
    refine h.nValues e fun e => ?_
    obtain ⟨-, e⟩ := InBounds.guarded e
    obtain ⟨l, -, e⟩ := Outcome.bind_eq_ret.1 e
    cases e; exact hu l
  simp only at e
  split at e
  case h_7 =>
    split at e
    · exact h.fail e
    · refine htake ?_ e; exact fun _ => h
  all_goals first | exact h.fail e | (refine htake ?_ e; exact fun _ => h)

theorem InBounds.setU {ctx : Ctx F} {mv mv' : MV F (Data F)} {vr p n i s b} (h : InBounds mv)
    (e : setUInt64 ctx mv vr p n i = .ret (mv', s, b)) : InBounds mv' := by
  refine h.notNull e fun e => ?_
  split at e
  · exact h.fail e
  obtain ⟨v, -, e⟩ := Outcome.bind_eq_ret.1 e
  have hb : inBounds mv.data = true := h
  simp only [inBounds, Bool.and_eq_true, decide_eq_true_eq] at hb
  have hfin : ∀ {d : Data F}, inBounds d = true →
      assertNValues ctx mv 1 n (i + 1) (i + 1)
        (.ret ({ mv with data := d, isDirtyValues := true }, .OK, i + 1)) = .ret (mv', s, b) →
      InBounds mv' := by
    intro d hd e
    refine h.nValues e fun e => ?_
    cases e; exact hd
  simp only at e
  split at e
  · split at e
    · exact h.fail e
    · refine hfin ?_ e
      simp only [inBounds, Bool.and_eq_true, decide_eq_true_eq]; omega
  · split at e
    · exact h.fail e
    · refine hfin ?_ e
      simp only [inBounds, Bool.and_eq_true, decide_eq_true_eq]; omega
  · split at e
    · exact h.fail e
    · refine hfin ?_ e
      simp only [inBounds, Bool.and_eq_true, decide_eq_true_eq]; omega
  · exact h.fail e

/-- The dimensions stay in bounds. -/
theorem dims : MVInv (model : Model F (Data F)) InBounds where
  step {f ctx mv mv' s} h e := by
    cases e with
    | «calc» e =>
      obtain ⟨mv1, e1, e⟩ := Outcome.bind_eq_ret.1 e
      cases e; exact InBounds.calc e1
    | @get t vr p n i _ _ _ _ b e =>
      cases t with
      | float64 => exact h.get e
      | uint64 => exact h.getU e
      | _ => exact h.fail e
    | @set t vr p n i _ _ _ _ b e =>
      cases t with
      | float64 => exact h.set e
      | uint64 => exact h.setU e
      | _ => exact h.fail e
    | event hu e =>
      cases hu; cases e; exact h
    | getStates e =>
      refine h.notNull e fun e => h.checkNx e fun e => ?_
      obtain ⟨-, e⟩ := InBounds.guarded e
      obtain ⟨_, -, e⟩ := Outcome.bind_eq_ret.1 e
      cases e; exact h
    | nominals e =>
      refine h.notNull e fun e => h.checkNx e fun e => ?_
      obtain ⟨_, -, e⟩ := Outcome.bind_eq_ret.1 e
      cases e; exact h
    | setStates e =>
      refine h.notNull e fun e => h.checkNx e fun e => ?_
      obtain ⟨-, e⟩ := InBounds.guarded e
      obtain ⟨_, -, e⟩ := Outcome.bind_eq_ret.1 e
      cases e; exact h
    | deriv e =>
      refine h.notNull e fun e => h.checkNx e fun e => ?_
      obtain ⟨mv1, e1, e⟩ := Outcome.bind_eq_ret.1 e
      obtain ⟨_, -, e⟩ := Outcome.bind_eq_ret.1 e
      cases e; exact InBounds.calc e1
    | indicators e =>
      change vecStub _ _ _ _ = _ at e
      unfold vecStub assertSize at e
      split at e
      · exact h.fail e
      · cases e; exact h
    | partialDeriv e => exact h.fail e
    | outDeriv e => cases e
    | activate e => cases e; exact h
    | getClock e => cases e; exact h
    | getInterval e => cases e; exact h
    | partition e => cases e; exact h
  dirty _ h := h
  trace _ h := h
  start _ := rfl

theorem inBounds_reachable {t : IType} {w : FMI3.World F (Data F)}
    (h : FMI3.Reachable (model : Model F (Data F)) t w) : InBounds w.inst.mv :=
  (FMI3.Reachable.mv RefFMU3.stateSpace.eff.okOrError dims rfl h).inst

end StateSpace

/-- Every FMI 3.0 Reference FMU; the condition `Q` holds in every reachable world. -/
theorem RefFMU3.vectors {m : Model F D} (hm : RefFMU3 m) : ∃ Q : MV F D → Prop, m.Vectors Q ∧
    ∀ t w, FMI3.Reachable m t w → Q w.inst.mv := by
  cases hm with
  | bouncingBall =>
    refine ⟨_, .ode BouncingBall.ode (Nat.succ_pos _) [Arith.lit 1, Arith.lit 1] rfl ones (fun ctx mv p n => ⟨_, rfl⟩) (fun h => by cases h) ?_,
      fun _ _ _ => trivial⟩
    intro d l h; obtain ⟨a, b, rfl⟩ := length_two h; rfl
  | dahlquist =>
    refine ⟨_, .ode Dahlquist.ode (Nat.succ_pos _) [Arith.lit 1] rfl (fun v h => ones v (List.mem_cons_of_mem _ h)) (fun ctx mv p n => ⟨_, rfl⟩) (fun _ => rfl) ?_,
      fun _ _ _ => trivial⟩
    intro d l h; obtain ⟨a, rfl⟩ := length_one h; rfl
  | vanDerPol =>
    refine ⟨_, .ode VanDerPol.ode (Nat.succ_pos _) [Arith.lit 1, Arith.lit 1] rfl ones (fun ctx mv p n => ⟨_, rfl⟩) (fun _ => rfl) ?_,
      fun _ _ _ => trivial⟩
    intro d l h; obtain ⟨a, b, rfl⟩ := length_two h; rfl
  | roberts =>
    refine ⟨_, .ode Roberts.ode (Nat.succ_pos _) [Arith.lit (1 / 10000), Arith.lit (1 / 100)] rfl smalls (fun ctx mv p n => ⟨_, rfl⟩) (fun h => by cases h) ?_,
      fun _ _ _ => trivial⟩
    intro d l h; obtain ⟨a, b, rfl⟩ := length_two h; rfl
  | stateSpace => exact ⟨_, StateSpace.vectors, fun _ _ h => StateSpace.inBounds_reachable h⟩
  | feedthrough => exact ⟨_, .stub rfl rfl rfl rfl rfl rfl rfl, fun _ _ _ => trivial⟩
  | resource => exact ⟨_, .stub rfl rfl rfl rfl rfl rfl rfl, fun _ _ _ => trivial⟩
  | stair => exact ⟨_, .stub rfl rfl rfl rfl rfl rfl rfl, fun _ _ _ => trivial⟩
  | clocks => exact ⟨_, .stub rfl rfl rfl rfl rfl rfl rfl, fun _ _ _ => trivial⟩

end Verif
