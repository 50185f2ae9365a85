import Verif.Spec.Independent
import Verif.XRat
import Mathlib.Algebra.Order.Group.Abs
import Mathlib.Algebra.Order.Field.Rat

/-!
# Specification: derivatives

What a derivative is, and what a call of the functions for directional and adjoint derivatives gives.
-/

namespace Verif

/-- `a` is the derivative of `f` at zero. -/
def IsDerivative (f : Rat → Rat) (a : Rat) : Prop :=
  ∀ ε > 0, ∃ δ > 0, ∀ s, |s| < δ → |f s - f 0 - s * a| ≤ ε * |s|

/-- Inner product. -/
def dot : List Rat → List Rat → Rat
  | a :: l, b :: r => a * b + dot l r
  | _, _ => 0

/-- The sum of the seeds that belong to the variable `r`. -/
def seedOf (r : Nat) : List Nat → List Rat → Rat
  | k :: ks, s :: seed => (if k = r then s else 0) + seedOf r ks seed
  | _, _ => 0

/-- The FMUs that offer directional derivatives. -/
inductive HasDerivatives {F : Type} [Arith F] : {D : Type} → Model F D → Prop
  | vanDerPol : HasDerivatives VanDerPol.model
  | roberts : HasDerivatives Roberts.model

namespace FMI2
variable {F D : Type} [Arith F] [HasInf F]

/-- `fmi2GetDirectionalDerivative` for the unknowns `us` and the knowns `ks` succeeds and gives `out`. -/
def Directional (m : Model F D) (w : World F D) (us ks : List Nat) (seed out : List F) : Prop :=
  ∀ fuel buf, buf.length = us.length → ∃ w',
    step m fuel w (.getDirectionalDerivative (some us) us.length (some ks) ks.length (some seed) (some buf)) =
      .ret (w', .OK, .reals (some out))

/-- All floating point variables are finite. -/
def AllFinite {D : Type} (m : Model XRat D) (w : World XRat D) : Prop :=
  ∀ r v, Reads m w .float64 r v → ∃ q, v = .fin q

end FMI2

namespace FMI3
variable {F D : Type} [Arith F] [HasInf F]

/-- `fmi3GetDirectionalDerivative` for the unknowns `us` and the knowns `ks` succeeds and gives `out`. -/
def Directional (m : Model F D) (w : World F D) (us ks : List Nat) (seed out : List F) : Prop :=
  ∀ fuel buf, buf.length = us.length → ∃ w',
    step m fuel w (.getDirectionalDerivative (some us) us.length (some ks) ks.length (some seed) (some buf)) =
      .ret (w', .OK, .reals (some out))

/-- `fmi3GetAdjointDerivative` for the unknowns `us` and the knowns `ks` succeeds and gives `out`. -/
def Adjoint (m : Model F D) (w : World F D) (us ks : List Nat) (seed out : List F) : Prop :=
  ∀ fuel buf, buf.length = ks.length → ∃ w',
    step m fuel w (.getAdjointDerivative (some us) us.length (some ks) ks.length (some seed) (some buf)) =
      .ret (w', .OK, .reals (some out))

/-- All floating point variables are finite. -/
def AllFinite {D : Type} (m : Model XRat D) (w : World XRat D) : Prop :=
  ∀ r v, Reads m w .float64 r v → ∃ q, v = .fin q

end FMI3
end Verif
