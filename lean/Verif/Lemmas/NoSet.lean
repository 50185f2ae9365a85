import Verif.History3

/-!
# An FMU without the setter of one type

`m.noSet X` is `m` except that setting variables of type `X` is undefined. Calls that do not set variables of that type do
the same in both.
-/

set_option linter.unusedSectionVars false

namespace Verif
variable {F D : Type}

/-- `m` without the setter of type `X`. -/
def Model.noSet (m : Model F D) (X : VType) : Model F D :=
  { m with set := fun t ctx mv vr p n i => if t = X then .ub else m.set t ctx mv vr p n i }

variable {m : Model F D} {X : VType}

theorem noSet_getLoop {t : VType} {vr : Ptr Nat} {nv : Nat} : ∀ n, getLoop (m.noSet X) t vr nv n = getLoop m t vr nv n := by
  intro n
  induction n with
  | zero => rfl
  | succ n ih => funext i c st v ix; unfold getLoop; rw [ih]; rfl

theorem noSet_setLoop {t : VType} (ht : t ≠ X) {vr : Ptr Nat} {v : Ptr (t.Val F)} {nv : Nat} :
    ∀ n, setLoop (m.noSet X) t vr v nv n = setLoop m t vr v nv n := by
  intro n
  induction n with
  | zero => rfl
  | succ n ih =>
    funext i c st ix
    unfold setLoop
    rw [ih]
    have : ∀ c : Comp F D, ∀ r, (m.noSet X).set t c.ctx c.mv r v nv ix = m.set t c.ctx c.mv r v nv ix := by
      intro c r; simp [Model.noSet, ht]
    simp only [this]

namespace FMI3
variable [Arith F] [HasInf F]

theorem noSet_getClockLoop {vr : Ptr Nat} : ∀ n, getClockLoop (m.noSet X) vr n = getClockLoop m vr n := by
  intro n
  induction n with
  | zero => rfl
  | succ n ih => funext i c st v; unfold getClockLoop; rw [ih]; rfl

theorem noSet_setClockLoop {vr : Ptr Nat} {v : Ptr Bool} : ∀ n, setClockLoop (m.noSet X) vr v n = setClockLoop m vr v n := by
  intro n
  induction n with
  | zero => rfl
  | succ n ih => funext i c st; unfold setClockLoop; rw [ih]; rfl

theorem noSet_getIntervalLoop {vr : Ptr Nat} : ∀ n, getIntervalLoop (m.noSet X) vr n = getIntervalLoop m vr n := by
  intro n
  induction n with
  | zero => rfl
  | succ n ih => funext i c st a; unfold getIntervalLoop; rw [ih]; rfl

theorem noSet_doStepLoop {next : F} {out : StepOut F} : ∀ n, doStepLoop (m.noSet X) next out n = doStepLoop m next out n := by
  intro n
  induction n with
  | zero => rfl
  | succ n ih => funext c st ehn; unfold doStepLoop; rw [ih]; rfl

theorem noSet_derivInner {pair seed} : ∀ n, derivInner (m.noSet X) pair seed n = derivInner m pair seed n := by
  intro n
  induction n with
  | zero => rfl
  | succ n ih => funext j c st acc; unfold derivInner; rw [ih]; rfl

theorem noSet_derivOuter {pair seed k} : ∀ n, derivOuter (m.noSet X) pair seed k n = derivOuter m pair seed k n := by
  intro n
  induction n with
  | zero => rfl
  | succ n ih => funext j c st acc; unfold derivOuter; rw [ih, noSet_derivInner]

/-- Calls that do not set variables of type `X`. -/
theorem noSet_step {fuel : Nat} {w : World F D} {op : Op F} (h : op.fn ≠ .set X) :
    step (m.noSet X) fuel w op = step m fuel w op := by
  cases op <;> try rfl
  case get => simp only [step, getVars, noSet_getLoop]; rfl
  case set t vr n v nv =>
    have ht : t ≠ X := fun e => h (by simp [Op.fn, e])
    simp only [step, setVars, noSet_setLoop ht]
  case getClock => simp only [step, getClock, noSet_getClockLoop]
  case setClock => simp only [step, setClock, noSet_setClockLoop]
  case getIntervalDecimal => simp only [step, getIntervalDecimal, noSet_getIntervalLoop]
  case getDirectionalDerivative => simp only [step, getDirectionalDerivative, noSet_derivOuter]
  case getAdjointDerivative => simp only [step, getAdjointDerivative, noSet_derivOuter]
  case doStep => simp only [step, doStep, noSet_doStepLoop]

theorem noSet_run {fuel : Nat} : ∀ (ops : List (Op F)) {w : World F D}, (∀ op ∈ ops, op.fn ≠ .set X) →
    run (m.noSet X) fuel w ops = run m fuel w ops := by
  intro ops
  induction ops with
  | nil => intro w _; rfl
  | cons op ops ih =>
    intro w h
    unfold run
    rw [noSet_step (h op (by simp))]
    congr 1
    funext ⟨w, s, o⟩
    simp only []
    rw [ih fun op hop => h op (by simp [hop])]

end FMI3
end Verif
