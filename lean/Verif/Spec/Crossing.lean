import Verif.Spec.Schedule

/-! # Specification: zero crossings and the evaluation of event indicators -/

namespace Verif
variable {F : Type}

/-- A quantity that was `p` and is now `q` has moved between the domains `z > 0` and `z ≤ 0`. -/
def Crosses [Arith F] (p q : F) : Prop :=
  ((p <=. Arith.lit 0) = true ∧ (Arith.lit 0 <. q) = true) ∨ ((Arith.lit 0 <. p) = true ∧ (q <=. Arith.lit 0) = true)

/-- A ball at height `p` and then at height `q` has moved between above the ground and not above the ground. -/
def Ball.Crosses (p q : Rat) : Prop := (p ≤ 0 ∧ 0 < q) ∨ (0 < p ∧ q ≤ 0)

namespace FMI3

/-- `p` is the value of the variable `vr` of an instance with Event Mode and early return when its event indicators were last
evaluated. They are evaluated at the end of the initialisation and in every `fmi3DoStep` that advances the time (the variable 0).
What the importer does afterwards may change the variable, for example by handling an event. -/
inductive Evaluated [Arith F] [HasInf F] {D : Type} (m : Model F D) (vr : Nat) (p : F) : World F D → Prop
  | exit {w w' fuel o} : ReachableCS m true true w → step m fuel w .exitInitializationMode = .ret (w', .OK, o) →
      Reads m w' .float64 vr p → Evaluated m vr p w'
  | step {w w' fuel ccp h out o t t'} : ReachableCS m true true w → step m fuel w (.doStep ccp h out) = .ret (w', .OK, o) →
      Reads m w .float64 0 t → Reads m w' .float64 0 t' → t ≠ t' → Reads m w' .float64 vr p → Evaluated m vr p w'
  | other {w w' fuel op s o} : Evaluated m vr p w →
      op.fn ∉ [Fn.doStep, .exitInitializationMode, .exitConfigurationMode, .reset, .setFMUState] →
      (op.fn = .enterStepMode → w.inst.ctx.state ≠ .initializationMode) →
      FMI3.step m fuel w op = .ret (w', s, o) → Evaluated m vr p w'

end FMI3
end Verif
