import Verif.Spec.StartValues
import Verif.Spec.Modes3
import Verif.XRat

/-!
# Specification: the dependencies in the model descriptions

The tables copy the elements `InitialUnknown`, `ContinuousStateDerivative` and `Output` that list dependencies. An empty list is
not copied here. In FMI 2.0 the elements have indices into the list of variables; the tables use value references.
-/

namespace Verif
variable {F : Type}

/-- A scalar variable: its type and value reference. -/
abbrev Var := VType × Nat

/-- A `Float64` variable. -/
def real (vr : Nat) : Var := (.float64, vr)

/-- The dependencies that a model description declares. Parameters are constant after the initialisation, so that the
dependencies of a derivative or output do not list them. -/
structure Dependencies (F : Type) where
  /-- the mode of the FMU, as values of variables -/
  given : List (Start F) := []
  parameters : List Var := []
  initial : List (Var × List Var) := []
  /-- derivatives and outputs -/
  later : List (Var × List Var) := []

section
variable [Arith F]

/-- BouncingBall/FMI2.xml 94-101 and BouncingBall/FMI3.xml 67-70. `g` is a parameter but listed. -/
def BouncingBall.dependencies : Dependencies F where
  initial := [(real 2, [real 3]), (real 4, [real 5])]
  later := [(real 2, [real 3]), (real 4, [real 5])]

/-- Dahlquist/FMI2.xml 57-62 and Dahlquist/FMI3.xml 39-40 -/
def Dahlquist.dependencies : Dependencies F where
  parameters := [real 3]
  initial := [(real 2, [real 1, real 3])]
  later := [(real 2, [real 1])]

/-- VanDerPol/FMI2.xml 66-73 and VanDerPol/FMI3.xml 46-49 -/
def VanDerPol.dependencies : Dependencies F where
  parameters := [real 5]
  initial := [(real 2, [real 3]), (real 4, [real 1, real 3, real 5])]
  later := [(real 2, [real 3]), (real 4, [real 1, real 3])]

/-- Feedthrough/FMI2.xml 96-111 -/
def Feedthrough.dependencies2 : Dependencies F where
  initial := [(real 8, [real 7]), (real 10, [real 9]), ((.int32, 20), [(.int32, 19)]), ((.boolean, 28), [(.boolean, 27)]),
    ((.string, 30), [(.string, 29)]), ((.int32, 34), [(.int32, 33)])]
  later := [(real 8, [real 7]), (real 10, [real 9]), ((.int32, 20), [(.int32, 19)]), ((.boolean, 28), [(.boolean, 27)]),
    ((.string, 30), [(.string, 29)]), ((.int32, 34), [(.int32, 33)])]

/-- The pairs of an input and an output of Feedthrough/FMI3.xml 97-128 -/
def Feedthrough.pairs : List (Var × List Var) :=
  [((.float32, 2), [(.float32, 1)]), ((.float32, 4), [(.float32, 3)]), (real 8, [real 7]), (real 10, [real 9]),
    ((.int8, 12), [(.int8, 11)]), ((.uint8, 14), [(.uint8, 13)]), ((.int16, 16), [(.int16, 15)]), ((.uint16, 18), [(.uint16, 17)]),
    ((.int32, 20), [(.int32, 19)]), ((.uint32, 22), [(.uint32, 21)]), ((.int64, 24), [(.int64, 23)]), ((.uint64, 26), [(.uint64, 25)]),
    ((.boolean, 28), [(.boolean, 27)]), ((.string, 30), [(.string, 29)]), ((.binary, 32), [(.binary, 31)]), ((.int64, 34), [(.int64, 33)])]

/-- Feedthrough/FMI3.xml 97-128 -/
def Feedthrough.dependencies3 : Dependencies F where
  initial := Feedthrough.pairs
  later := Feedthrough.pairs

/-- Roberts/FMI3.xml 52-56, with `dae` false -/
def Roberts.dependencies : Dependencies F where
  given := [⟨.boolean, 1, false⟩]
  initial := [(real 3, [real 2, real 4]), (real 5, [real 2, real 4]), (real 6, [real 2, real 4])]
  later := [(real 3, [real 2, real 4]), (real 5, [real 2, real 4])]

/-- Roberts/fmi-ls-dae.xml 16-31, 44-50, with `dae` true; the residual is variable 8 -/
def Roberts.dependenciesDAE : Dependencies F where
  given := [⟨.boolean, 1, true⟩]
  initial := [(real 3, [real 2, real 4, real 6]), (real 5, [real 2, real 4, real 6])]
  later := [(real 3, [real 2, real 4, real 6]), (real 5, [real 2, real 4, real 6]), (real 8, [real 2, real 4, real 6])]

/-- The FMUs built for FMI 2.0 whose model description declares dependencies. -/
inductive FMI2.Depends : {D : Type} → Model F D → Dependencies F → Prop
  | bouncingBall : FMI2.Depends BouncingBall.model BouncingBall.dependencies
  | dahlquist : FMI2.Depends Dahlquist.model Dahlquist.dependencies
  | feedthrough : FMI2.Depends (Feedthrough.model false) Feedthrough.dependencies2
  | vanDerPol : FMI2.Depends VanDerPol.model VanDerPol.dependencies

/-- The FMUs built for FMI 3.0 whose model description declares dependencies, but for the clocks of Clocks. -/
inductive FMI3.Depends : {D : Type} → Model F D → Dependencies F → Prop
  | bouncingBall : FMI3.Depends BouncingBall.model BouncingBall.dependencies
  | dahlquist : FMI3.Depends Dahlquist.model Dahlquist.dependencies
  | feedthrough : FMI3.Depends (Feedthrough.model true) Feedthrough.dependencies3
  | roberts : FMI3.Depends Roberts.model Roberts.dependencies
  | robertsDAE : FMI3.Depends Roberts.model Roberts.dependenciesDAE
  | vanDerPol : FMI3.Depends VanDerPol.model VanDerPol.dependencies

variable [HasInf F] {D : Type}

/-- Both instances report the same values for the variables `vars`. -/
def FMI2.Equal (m : Model F D) (w w' : FMI2.World F D) (vars : List Var) : Prop :=
  ∀ p ∈ vars, ∃ v, FMI2.Reads m w p.1 p.2 v ∧ FMI2.Reads m w' p.1 p.2 v

/-- Both instances report the same values for the variables `vars`. -/
def FMI3.Equal (m : Model F D) (w w' : FMI3.World F D) (vars : List Var) : Prop :=
  ∀ p ∈ vars, ∃ v, FMI3.Reads m w p.1 p.2 v ∧ FMI3.Reads m w' p.1 p.2 v

end

/-- `c₀ + c₁ x₁ + c₂ x₂ + …` -/
def affine (c₀ : Rat) : List Rat → List Rat → Rat
  | c :: cs, x :: xs => affine (c₀ + c * x) cs xs
  | _, _ => c₀

/-- The unknown `u` is a combination of the values of `xs` with constant factors, `dependenciesKind="constant"`, in all
instances of FMU `m` that meet `P`. -/
def FMI2.Constant {D : Type} (m : Model XRat D) (P : FMI2.World XRat D → Prop) (u : Nat) (xs : List Nat) : Prop :=
  ∃ c₀ cs, cs.length = xs.length ∧ ∀ w q, P w → q.length = xs.length →
    (∀ p ∈ xs.zip q, FMI2.Reads m w .float64 p.1 (.fin p.2)) → FMI2.Reads m w .float64 u (.fin (affine c₀ cs q))

/-- The unknown `u` is a combination of the values of `xs` with constant factors, `dependenciesKind="constant"`, in all
instances of FMU `m` that meet `P`. -/
def FMI3.Constant {D : Type} (m : Model XRat D) (P : FMI3.World XRat D → Prop) (u : Nat) (xs : List Nat) : Prop :=
  ∃ c₀ cs, cs.length = xs.length ∧ ∀ w q, P w → q.length = xs.length →
    (∀ p ∈ xs.zip q, FMI3.Reads m w .float64 p.1 (.fin p.2)) → FMI3.Reads m w .float64 u (.fin (affine c₀ cs q))

/-- The rows of Float64 variables with `dependenciesKind="constant"`: BouncingBall/FMI2.xml 95-100, Feedthrough/FMI2.xml 97-106,
VanDerPol/FMI2.xml 67-71 -/
inductive FMI2.DeclaresConstant : {D : Type} → Model XRat D → Nat → List Nat → Prop
  | height : FMI2.DeclaresConstant BouncingBall.model 2 [3]
  | velocity : FMI2.DeclaresConstant BouncingBall.model 4 [5]
  | feedthrough : FMI2.DeclaresConstant (Feedthrough.model false) 8 [7]
  | feedthrough' : FMI2.DeclaresConstant (Feedthrough.model false) 10 [9]
  | vanDerPol : FMI2.DeclaresConstant VanDerPol.model 2 [3]

/-- The rows of Float64 variables with `dependenciesKind="constant"`: BouncingBall/FMI3.xml 67-70, Feedthrough/FMI3.xml 99-116,
VanDerPol/FMI3.xml 46-48, Roberts/FMI3.xml 56 (with `dae` false), Roberts/fmi-ls-dae.xml 16-23 and 44-50 (with `dae` true) -/
inductive FMI3.DeclaresConstant : {D : Type} → Model XRat D → (dae : Option Bool) → Nat → List Nat → Prop
  | height : FMI3.DeclaresConstant BouncingBall.model none 2 [3]
  | velocity : FMI3.DeclaresConstant BouncingBall.model none 4 [5]
  | feedthrough : FMI3.DeclaresConstant (Feedthrough.model true) none 8 [7]
  | feedthrough' : FMI3.DeclaresConstant (Feedthrough.model true) none 10 [9]
  | roberts : FMI3.DeclaresConstant Roberts.model (some false) 6 [2, 4]
  | residual : FMI3.DeclaresConstant Roberts.model (some true) 8 [2, 4, 6]
  | derY1 : FMI3.DeclaresConstant Roberts.model (some true) 3 [2, 4, 6]
  | derY2 : FMI3.DeclaresConstant Roberts.model (some true) 5 [2, 4, 6]
  | vanDerPol : FMI3.DeclaresConstant VanDerPol.model none 2 [3]

/-- An instance that can be read, in which the variable `dae` (1) has the value `dae`, if any. -/
def FMI3.Mode {D : Type} (m : Model XRat D) (dae : Option Bool) (w : FMI3.World XRat D) : Prop :=
  w.inst.ctx.state ∈ FMI3.Spec.allowedIn (.get .float64) ∧ ∀ b, dae = some b → FMI3.Reads m w .boolean 1 b

end Verif
