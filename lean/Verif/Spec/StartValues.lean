import Verif.Spec.Schedule
import Verif.Spec.StateSpace

/-!
# Specification: the start values in the model descriptions

The tables copy the attribute `start` of the variables with `initial="exact"`, of the parameters, the inputs and the
constants. Roberts declares `initial="approx"` for `y3`, so that its start value is only a guess. Resource declares no start
values.
-/

namespace Verif
variable {F D : Type}

/-- A start value: the type, the value reference and the value of a variable. -/
structure Start (F : Type) where
  type : VType
  vr : Nat
  value : type.Val F

/-- A `Float64` start value. -/
def Start.float64 [Arith F] (vr : Nat) (q : Rat) : Start F := ⟨.float64, vr, Arith.lit q⟩

/-- The ASCII bytes of `Set me!`. -/
def setMe : List UInt8 := [0x53, 0x65, 0x74, 0x20, 0x6d, 0x65, 0x21]

section
variable [Arith F]

/-- BouncingBall/FMI2.xml 66-86 and BouncingBall/FMI3.xml 53-61: `h`, `v`, `g`, `e`, `v_min`. The
minus sign of `-9.81` negates the number `9.81`. -/
def BouncingBall.starts : List (Start F) :=
  [.float64 1 1, .float64 3 0, ⟨.float64, 5, Arith.neg (Arith.lit (981 / 100))⟩, .float64 6 (7 / 10), .float64 7 (1 / 10)]

/-- Dahlquist/FMI2.xml 42-50 and Dahlquist/FMI3.xml 32-34: `x`, `k` -/
def Dahlquist.starts : List (Start F) := [.float64 1 1, .float64 3 1]

/-- VanDerPol/FMI2.xml 44-58 and VanDerPol/FMI3.xml 36-40: `x0`, `x1`, `mu` -/
def VanDerPol.starts : List (Start F) := [.float64 1 2, .float64 3 0, .float64 5 1]

/-- Stair/FMI2.xml 42-44 and Stair/FMI3.xml 33: `counter` -/
def Stair.starts : List (Start F) := [⟨.int32, 1, (1 : Int)⟩]

/-- Clocks/FMI3.xml 20: `input2` -/
def Clocks.starts : List (Start F) := [⟨.int32, 2006, (0 : Int)⟩]

/-- Roberts/FMI3.xml 36-42: `dae`, `y1`, `y2`, `y3_nominal` -/
def Roberts.starts : List (Start F) := [⟨.boolean, 1, false⟩, .float64 2 1, .float64 4 0, .float64 7 (1 / 100)]

/-- Feedthrough/FMI2.xml 51-89: the parameters and inputs of the FMI 2.0 build -/
def Feedthrough.starts2 : List (Start F) :=
  [.float64 5 0, .float64 6 0, .float64 7 0, .float64 9 0, ⟨.int32, 19, (0 : Int)⟩, ⟨.boolean, 27, false⟩,
    ⟨.string, 29, some setMe⟩, ⟨.int32, 33, (1 : Int)⟩]

/-- Feedthrough/FMI3.xml 42-91: the parameters and inputs of the FMI 3.0 build. The start value of the binary variable is
`666f6f`. -/
def Feedthrough.starts3 : List (Start F) :=
  [⟨.float32, 1, (0 : UInt32)⟩, ⟨.float32, 3, (0 : UInt32)⟩, .float64 5 0, .float64 6 0, .float64 7 0, .float64 9 0,
    ⟨.int8, 11, (0 : Int)⟩, ⟨.uint8, 13, (0 : Int)⟩, ⟨.int16, 15, (0 : Int)⟩, ⟨.uint16, 17, (0 : Int)⟩, ⟨.int32, 19, (0 : Int)⟩,
    ⟨.uint32, 21, (0 : Int)⟩, ⟨.int64, 23, (0 : Int)⟩, ⟨.uint64, 25, (0 : Int)⟩, ⟨.boolean, 27, false⟩,
    ⟨.string, 29, some setMe⟩, ⟨.binary, 31, ⟨3, some [0x66, 0x6f, 0x6f]⟩⟩, ⟨.int64, 33, (1 : Int)⟩]

/-- StateSpace/FMI3.xml 33-35: `m`, `n`, `r` -/
def StateSpace.starts : List (Start F) := [⟨.uint64, 1, (3 : Int)⟩, ⟨.uint64, 2, (3 : Int)⟩, ⟨.uint64, 3, (3 : Int)⟩]

/-- StateSpace/FMI3.xml 36-57: `A`, `B`, `C`, `D` and `u` (`x0` is separate) -/
def StateSpace.startArrays : List (Nat × List F) :=
  let one : List F := [1, 0, 0, 0, 1, 0, 0, 0, 1].map Arith.lit
  [(4, one), (5, one), (6, one), (7, one), (9, [1, 2, 3].map Arith.lit)]

/-- Calls that neither set anything nor simulate. -/
def FMI2.Leaves (op : FMI2.Op F) : Prop :=
  op.fn ∉ [FMI2.Fn.setReal, .setInteger, .setBoolean, .setString, .setContinuousStates, .setTime, .setFMUstate, .reset, .doStep,
    .newDiscreteStates]

/-- Calls that neither set anything nor simulate. -/
def FMI3.Leaves (op : FMI3.Op F) : Prop :=
  (∀ t, op.fn ≠ .set t) ∧ op.fn ∉ [FMI3.Fn.setClock, .getClock, .getIntervalDecimal, .activateModelPartition,
    .setContinuousStates, .setTime, .setFMUState, .reset, .doStep, .updateDiscreteStates]

/-- The FMUs built for FMI 2.0 with start values, with the values from their model descriptions. -/
inductive FMI2.Declares : {D : Type} → Model F D → List (Start F) → Prop
  | bouncingBall : FMI2.Declares BouncingBall.model BouncingBall.starts
  | dahlquist : FMI2.Declares Dahlquist.model Dahlquist.starts
  | feedthrough : FMI2.Declares (Feedthrough.model false) Feedthrough.starts2
  | stair : FMI2.Declares Stair.model Stair.starts
  | vanDerPol : FMI2.Declares VanDerPol.model VanDerPol.starts

/-- The FMUs built for FMI 3.0 with scalar start values, with the values from their model descriptions. -/
inductive FMI3.Declares : {D : Type} → Model F D → List (Start F) → Prop
  | bouncingBall : FMI3.Declares BouncingBall.model BouncingBall.starts
  | clocks : FMI3.Declares Clocks.model Clocks.starts
  | dahlquist : FMI3.Declares Dahlquist.model Dahlquist.starts
  | feedthrough : FMI3.Declares (Feedthrough.model true) Feedthrough.starts3
  | roberts : FMI3.Declares Roberts.model Roberts.starts
  | stair : FMI3.Declares Stair.model Stair.starts
  | vanDerPol : FMI3.Declares VanDerPol.model VanDerPol.starts

variable [HasInf F]

/-- An FMI 2.0 instance in which nothing was set since it was created. -/
def FMI2.Untouched (m : Model F D) (w : FMI2.World F D) : Prop :=
  ∃ name t guid resource functions loggingOn mem c l w₀,
    FMI2.instantiate m name t guid resource functions loggingOn mem = (some c, l) ∧ w₀.Initial c ∧
    FMI2.Calls m (fun _ op => FMI2.Leaves op) w₀ w

/-- An FMI 2.0 instance in which nothing was set since a successful `fmi2Reset`, which came after any calls. -/
def FMI2.Renewed (m : Model F D) (w : FMI2.World F D) : Prop :=
  ∃ t v w₀ fuel o, FMI2.Reachable m t v ∧ FMI2.step m fuel v .reset = .ret (w₀, .OK, o) ∧
    FMI2.Calls m (fun _ op => FMI2.Leaves op) w₀ w

/-- An FMI 3.0 instance in which nothing was set since it was created. -/
def FMI3.Untouched (m : Model F D) (w : FMI3.World F D) : Prop :=
  ∃ t c w₀, FMI3.New m t c ∧ w₀.Initial c ∧ FMI3.Calls m (fun _ op => FMI3.Leaves op) w₀ w

/-- An FMI 3.0 instance in which nothing was set since a successful `fmi3Reset`, which came after any calls. -/
def FMI3.Renewed (m : Model F D) (w : FMI3.World F D) : Prop :=
  ∃ t v w₀ fuel o, FMI3.Reachable m t v ∧ FMI3.step m fuel v .reset = .ret (w₀, .OK, o) ∧
    FMI3.Calls m (fun _ op => FMI3.Leaves op) w₀ w

end
end Verif
