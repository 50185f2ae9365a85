import Verif.Spec.Held

/-!
# Specification: the defining equations of the FMUs

From the `readme.md` of the FMUs. `v t r` stands for the value of the variable `r` of type `t`.
-/

namespace Verif
variable {F : Type} [Arith F]

/-- The values of all variables. -/
abbrev Values (F : Type) := (t : VType) → Nat → t.Val F

/-- A variable and the term that defines it. -/
inductive Equation : {D : Type} → Model F D → (t : VType) → Nat → (Values F → t.Val F) → Prop
  /-- der(h) = v -/
  | bouncingBall_der_h : Equation BouncingBall.model .float64 2 fun v => v .float64 3
  /-- der(v) = g -/
  | bouncingBall_der_v : Equation BouncingBall.model .float64 4 fun v => v .float64 5
  /-- der(x) = -k x -/
  | dahlquist_der_x : Equation Dahlquist.model .float64 2 fun v => Arith.neg (v .float64 3) *. v .float64 1
  /-- der(x0) = x1 -/
  | vanDerPol_der_x0 : Equation VanDerPol.model .float64 2 fun v => v .float64 3
  /-- der(x1) = mu ((1 - x0²) x1) - x0 -/
  | vanDerPol_der_x1 : Equation VanDerPol.model .float64 4 fun v =>
      v .float64 5 *. ((Arith.lit 1 -. v .float64 1 *. v .float64 1) *. v .float64 3) -. v .float64 1
  /-- der(y1) = -0.04 y1 + 1e4 y2 y3 -/
  | roberts_der_y1 : Equation Roberts.model .float64 3 fun v =>
      Arith.neg (Arith.lit (4 / 100)) *. v .float64 2 +. Arith.lit 10000 *. v .float64 4 *. v .float64 6
  /-- der(y2) = 0.04 y1 - 1e4 y2 y3 - 3e7 y2² -/
  | roberts_der_y2 : Equation Roberts.model .float64 5 fun v =>
      Arith.lit (4 / 100) *. v .float64 2 -. Arith.lit 10000 *. v .float64 4 *. v .float64 6 -.
        Arith.lit 30000000 *. v .float64 4 *. v .float64 4
  /-- y3 = 1 - y1 - y2 unless `dae` is set -/
  | roberts_y3 : Equation Roberts.model .float64 6 fun v =>
      if v .boolean 1 then v .float64 6 else Arith.lit 1 -. v .float64 2 -. v .float64 4
  /-- r = y1 + y2 + y3 - 1 -/
  | roberts_r : Equation Roberts.model .float64 8 fun v =>
      v .float64 2 +. v .float64 4 +. v .float64 6 -. Arith.lit 1
  /-- output = input -/
  | feedthrough {v3 : Bool} {t : VType} {i o : Nat} {start : t.Val F} : FeedPort v3 t i o start → Equation (Feedthrough.model v3) t o fun v => v t i

/-- The value references of the continuous states, their derivatives, and the terms of the event
indicators. -/
inductive Continuous : {D : Type} → Model F D → List Nat → List Nat → (Values F → List F) → Prop
  | bouncingBall : Continuous BouncingBall.model [1, 3] [2, 4] fun v =>
      [if Arith.neg (Arith.lit (1 / 10000000000)) <. v .float64 1 && v .float64 1 <=. Arith.lit 0 && Arith.lit 0 <. v .float64 3
        then Arith.neg (Arith.lit (1 / 10000000000)) else v .float64 1]
  | dahlquist : Continuous Dahlquist.model [1] [2] fun _ => []
  | vanDerPol : Continuous VanDerPol.model [1, 3] [2, 4] fun _ => []
  | roberts : Continuous Roberts.model [2, 4] [3, 5] fun v =>
      [v .float64 2 -. Arith.lit (1 / 10000), v .float64 6 -. Arith.lit (1 / 100)]

namespace FMI2
variable {D : Type} [HasInf F]

/-- `v` holds the values the getters report in `w`. -/
def Reported (m : Model F D) (w : World F D) (v : Values F) : Prop :=
  ∀ t r u, Reads m w t r u → v t r = u

end FMI2

namespace FMI3
variable {D : Type} [HasInf F]

/-- `v` holds the values the getters report in `w`. -/
def Reported (m : Model F D) (w : World F D) (v : Values F) : Prop :=
  ∀ t r u, Reads m w t r u → v t r = u

end FMI3
end Verif
