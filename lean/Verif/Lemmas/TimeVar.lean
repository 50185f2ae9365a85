import Verif.RefFMUs
import Verif.History2
import Verif.History3
import Verif.Lemmas.Hoare
import Verif.Lemmas.ModelEff

/-! # The time variable has value reference 0 in every Reference FMU -/

set_option linter.unusedSectionVars false

namespace Verif
variable {F D : Type} [Arith F]

/-- Variable 0 is the time. -/
def Model.TimeVar (m : Model F D) : Prop :=
  ∀ ctx mv x nValues, (m.get .float64 ctx mv 0 (some [x]) nValues 0).All fun y =>
    y.2.1 = .OK → y.2.2 = (some [ctx.time], 1)

theorem putScalar_one {ctx : Ctx F} {mv : MV F D} {x v : F} {n : Nat} :
    (putScalar ctx mv (some [x]) n 0 v).All fun y => y.2.1 = .OK → y.2.2 = (some [v], 1) := by
  unfold putScalar assertNValues failM
  split
  · simp
  · simp [Ptr.write]

theorem RefFMU2.timeVar {m : Model F D} (h : RefFMU2 m) : m.TimeVar := by
  intro ctx mv x n
  cases h
  case bouncingBall => exact putScalar_one
  case dahlquist => exact putScalar_one
  case feedthrough => exact putScalar_one
  case resource fs =>
    refine Outcome.All.bind Outcome.all_true ?_
    rintro ⟨mv', s, u⟩ -
    exact putScalar_one
  case stair => exact putScalar_one
  case vanDerPol => exact putScalar_one

theorem RefFMU3.timeVar {m : Model F D} (h : RefFMU3 m) : m.TimeVar := by
  intro ctx mv x n
  cases h
  case bouncingBall => exact putScalar_one
  case clocks => exact putScalar_one
  case dahlquist => exact putScalar_one
  case feedthrough => exact putScalar_one
  case resource fs =>
    refine Outcome.All.bind Outcome.all_true ?_
    rintro ⟨mv', s, u⟩ -
    exact putScalar_one
  case roberts => exact putScalar_one
  case stair => exact putScalar_one
  case stateSpace =>
    refine Outcome.All.bind Outcome.all_true ?_
    intro mv' _
    exact putScalar_one
  case vanDerPol => exact putScalar_one

/-- Getting the time variable alone. -/
theorem getLoop_time {m : Model F D} (ht : m.TimeVar) {c : Comp F D} {st x n} :
    (getLoop m .float64 (some [0]) n 1 0 c st (some [x]) 0).All fun y =>
      y.2.1 = .OK → y.2.2.1 = some [c.ctx.time] := by
  simp only [getLoop, Ptr.read, List.getElem?_cons_zero, Outcome.ret_bind, call]
  refine Outcome.All.bind (R := fun y => y.2.1 = .OK → y.2.2 = (some [c.ctx.time], 1)) ?_ ?_
  · unfold Comp.lift
    refine Outcome.All.bind (ht c.ctx c.mv x n) ?_
    rintro ⟨mv, s, p⟩ h
    simpa using h
  · rintro ⟨c', s, p⟩ h
    simp only at h ⊢
    split
    · simp
    · simp
    · simp
    · next hst =>
      rw [Outcome.all_ret]
      intro e
      simp only at e
      cases s <;> cases st <;> simp_all [Status.rank]

theorem refresh_ctx {m : Model F D} (hm : OkOrError m) {β : Type} {c : Comp F D} {stop : β} {k}
    {Q : Comp F D × Status × β → Prop}
    (hq : ∀ x, x.2.1 = .Error → Q x)
    (hk : ∀ c', c'.ctx = c.ctx → (k c' .OK : Res F D β).All Q) :
    (refresh m .OK c stop k).All Q := by
  unfold refresh
  split
  · unfold call
    refine Outcome.All.bind (R := fun y => y.1.ctx = c.ctx ∧ (y.2.1 = .OK ∨ y.2.1 = .Error)) ?_ ?_
    · unfold Comp.lift
      intro y e
      obtain ⟨⟨mv, s, u⟩, e', h⟩ := Outcome.bind_eq_ret.1 e
      cases h
      exact ⟨rfl, hm _ _ _ _ _ (.calc e')⟩
    · rintro ⟨c', s, u⟩ ⟨h1, h2⟩
      simp only at h1 h2 ⊢
      rcases h2 with rfl | rfl
      · exact hk _ h1
      · exact Outcome.all_ret.2 (hq _ rfl)
  · exact hk c rfl

variable [HasInf F]

/-- Whenever reading the time variable succeeds, it gives the time. -/
theorem FMI2.read_time {m : Model F D} (hm : OkOrError m) (ht : m.TimeVar) {fuel : Nat}
    {w : World F D} {x : F} :
    (step m fuel w (.getReal (some [0]) 1 (some [x]))).All fun y =>
      y.2.1 = .OK → y.2.2 = .reals (some [w.inst.ctx.time]) := by
  simp only [step, World.run]
  refine Outcome.All.bind (R := fun y => y.2.1 = .OK → y.2.2 = some [w.inst.ctx.time]) ?_ ?_
  · simp only [getReal, begin, beginFunction]
    split
    · simp only [getVariables, assertNonNull, Option.isNone_some, Nat.one_ne_zero, if_false,
        Bool.false_eq_true]
      refine refresh_ctx hm (fun x h h' => by rw [h] at h'; cases h') fun c' hc => ?_
      refine Outcome.All.bind (getLoop_time ht) ?_
      rintro ⟨c, s, p, i⟩ h
      simpa [hc] using h
    · simp
  · rintro ⟨c, s, p⟩ h
    rw [Outcome.all_ret]
    intro e
    simp only at h e ⊢
    rw [h e]

/-- Whenever reading the time variable succeeds, it gives the time. -/
theorem FMI3.read_time {m : Model F D} (hm : OkOrError m) (ht : m.TimeVar) {fuel : Nat}
    {w : World F D} {x : F} :
    (step m fuel w (.get .float64 (some [0]) 1 (some [x]) 1)).All fun y =>
      y.2.1 = .OK → y.2.2 = .values .float64 (some [w.inst.ctx.time]) := by
  simp only [step, World.run]
  refine Outcome.All.bind (R := fun y => y.2.1 = .OK → y.2.2 = some [w.inst.ctx.time]) ?_ ?_
  · simp only [getVars, begin, beginFunction]
    split
    · simp only [assertNonNull, Option.isNone_some, Nat.one_ne_zero, if_false, Bool.false_eq_true,
        ite_self]
      refine refresh_ctx hm (fun x h h' => by rw [h] at h'; cases h') fun c' hc => ?_
      refine Outcome.All.bind (getLoop_time ht) ?_
      rintro ⟨c, s, p, i⟩ h
      simp only at h ⊢
      split
      · simpa [hc] using h
      · split
        · simp [fail]
        · simpa [hc] using h
    · simp
  · rintro ⟨c, s, p⟩ h
    rw [Outcome.all_ret]
    intro e
    simp only at h e ⊢
    rw [h e]

end Verif
