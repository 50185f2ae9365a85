import Verif.Basic

/-!
# Exact arithmetic with infinities and NaN

An instance of `Arith` for statements that need arithmetic laws and for concrete witnesses:
rational numbers computed exactly, extended by the special values of IEEE 754 (one zero only).
-/

namespace Verif

/-- Extended rationals. Idealises `double`: no rounding, one zero. The values of the type `double`, for example `time`, include/model.h 105. -/
inductive XRat
  | fin (q : Rat) | pinf | ninf | nan
  deriving DecidableEq, Repr

namespace XRat

/-- Sum, `inf - inf` is NaN. For example src/fmi3Functions.c 1217. -/
def add : XRat → XRat → XRat
  | fin a, fin b => fin (a + b)
  | nan, _ | _, nan => nan
  | pinf, ninf | ninf, pinf => nan
  | pinf, _ | _, pinf => pinf
  | ninf, _ | _, ninf => ninf

/-- Negation. For example src/cosimulation.c 176. -/
def neg : XRat → XRat
  | fin a => fin (-a)
  | pinf => ninf
  | ninf => pinf
  | nan => nan

/-- Difference. For example src/cosimulation.c 185. -/
def sub : XRat → XRat → XRat
  | fin a, fin b => fin (a - b)
  | a, b => add a (neg b)

/-- An infinity with the sign of `q`, NaN for zero. Part of the product, for example src/cosimulation.c 189. -/
def infMul (q : Rat) : XRat := if 0 < q then pinf else if q < 0 then ninf else nan

/-- Product, `0 * inf` is NaN. For example src/cosimulation.c 189. -/
def mul : XRat → XRat → XRat
  | fin a, fin b => fin (a * b)
  | nan, _ | _, nan => nan
  | pinf, fin a | fin a, pinf => infMul a
  | ninf, fin a | fin a, ninf => infMul (-a)
  | pinf, pinf | ninf, ninf => pinf
  | pinf, ninf | ninf, pinf => ninf

/-- Less than; false if one side is NaN. For example src/cosimulation.c 180. -/
def lt : XRat → XRat → Bool
  | fin a, fin b => decide (a < b)
  | nan, _ | _, nan => false
  | _, ninf | pinf, _ => false
  | ninf, _ | _, pinf => true

/-- Less or equal; false if one side is NaN. For example src/cosimulation.c 185. -/
def le : XRat → XRat → Bool
  | fin a, fin b => decide (a ≤ b)
  | nan, _ | _, nan => false
  | ninf, _ => true
  | _, ninf => false
  | _, pinf => true
  | pinf, _ => false

/-- `(int)x`: truncation, undefined outside the range of a 32 bit `int`. Clocks/model.c 35. -/
def toInt : XRat → Option Int
  | fin q =>
    let t := if 0 ≤ q then q.floor else -(-q).floor
    if -2147483648 ≤ t ∧ t ≤ 2147483647 then some t else none
  | _ => none

/-- The operations of `double`, for example src/cosimulation.c 173-190. -/
instance : Arith XRat where
  lit := fin
  add := add
  sub := sub
  mul := mul
  neg := neg
  lt := lt
  le := le
  toInt := toInt

/-- `INFINITY`, src/fmi2Functions.c 243 and src/fmi3Functions.c 399. -/
instance : HasInf XRat := ⟨pinf⟩

section
variable (a b : Rat)
@[simp] theorem add_fin : (fin a +. fin b) = fin (a + b) := rfl
@[simp] theorem sub_fin : (fin a -. fin b) = fin (a - b) := rfl
@[simp] theorem mul_fin : (fin a *. fin b) = fin (a * b) := rfl
@[simp] theorem neg_fin : Arith.neg (fin a) = fin (-a) := rfl
@[simp] theorem lt_fin : (fin a <. fin b) = decide (a < b) := rfl
@[simp] theorem le_fin : (fin a <=. fin b) = decide (a ≤ b) := rfl
@[simp] theorem lit_eq : (Arith.lit a : XRat) = fin a := rfl
end

end XRat
end Verif
