import Verif.Spec.Legal
import Verif.Spec.Elements

/-!
# Specification: calls of the StateSpace FMU that must succeed

StateSpace is the only Reference FMU with array variables: the number of values of a call is the number of all elements of the variables,
not the number of variables. The structural parameters `m`, `n` and `r` are 3 unless they are changed in Configuration Mode.
-/

namespace Verif
variable {F D : Type}

namespace StateSpace

/-- There is such a variable of type `t`: StateSpace/FMI3.xml 32-66. -/
def declares (t : VType) (r : Nat) : Prop :=
  match t with
  | .float64 => r = 0 ∨ 4 ≤ r ∧ r ≤ 12
  | .uint64 => 1 ≤ r ∧ r ≤ 3
  | _ => False

/-- The variable may be set in the mode: the matrices, the initial states and the inputs always, the states in the two modes of Model
Exchange; `m`, `n` and `r` cannot be set (C36). -/
def settable (mode : Mode) (t : VType) (r : Nat) : Prop :=
  t = .float64 ∧ (4 ≤ r ∧ r ≤ 9 ∨ r = 11 ∧ (mode = .continuousTimeMode ∨ mode = .eventMode))

/-- The number of elements of the variables with the dimensions 3. -/
def count (t : VType) (r : Nat) : Nat :=
  match t with
  | .float64 => elements 3 3 3 r
  | _ => 1

/-- The numbers of states and event indicators and the capabilities of StateSpace, StateSpace/FMI3.xml 9-22 and 69-75. The variables are
described by `declares` and `settable`. -/
def profile : Profile F D where
  vars := []
  states := 3

end StateSpace

/-- The value references in the array are `rs`. -/
def References (vr : Ptr Nat) (rs : List Nat) : Prop := ∀ i r, rs[i]? = some r → vr.At i r

/-- The arguments of a call of the StateSpace FMU are as the model description and the standard require. -/
def FMI3.ArgsStateSpace (m : Model F D) (w : FMI3.World F D) : FMI3.Op F → Prop
  | .get t vr n v nv => n = 0 ∨ ∃ rs, rs.length = n ∧ References vr rs ∧ (∀ r ∈ rs, StateSpace.declares t r) ∧
      (rs.map (StateSpace.count t)).sum = nv ∧ v ≠ none
  | .set t vr n v nv => n = 0 ∨ ∃ rs, rs.length = n ∧ References vr rs ∧ (∀ r ∈ rs, StateSpace.settable w.inst.ctx.state t r) ∧
      (rs.map (StateSpace.count t)).sum = nv ∧ v ≠ none
  | op => FMI3.Args m StateSpace.profile w op

end Verif
