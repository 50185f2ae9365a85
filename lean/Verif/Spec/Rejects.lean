import Verif.Spec.Expected
import Verif.Spec.Close
import Verif.XRat

/-!
# Specification: `DoStep` arguments that must be refused
-/

namespace Verif

/-- A communication step from `ccp` of size `h` does not fit the expected communication point or
the stop time. -/
inductive Clock.Rejects (k : Clock XRat) : (ccp h : XRat) → Prop
  /-- The communication point is not the expected one. -/
  | wrongPoint {a e : Rat} {h : XRat} : k.expected = .fin e → ¬ Close a e → Rejects k (.fin a) h
  /-- The communication point is not a number. -/
  | nanPoint {h : XRat} : Rejects k .nan h
  /-- The step size is not positive. -/
  | notPositive {q : Rat} {ccp : XRat} : q ≤ 0 → Rejects k ccp (.fin q)
  /-- The step size is minus infinity. -/
  | minusInf {ccp : XRat} : Rejects k ccp .ninf
  /-- The step ends behind the stop time. -/
  | pastStop {a q s : Rat} : k.stop = .fin s → s < a + q → ¬ Close (a + q) s →
      Rejects k (.fin a) (.fin q)

end Verif
