import Verif.History3

/-!
# Specification: the clocks of the variables of Clocks

The tables copy the model description of Clocks.
-/

namespace Verif.Clocks
variable {F : Type}

/-- The outputs of type `Int32` and the input clocks in their `dependencies`, Clocks/FMI3.xml 25-30. The attributes
`clocks` in 15-19 and 21 list the same clocks, except that `inClock3Ticks` (2003) has no such attribute. -/
def outputs : List (Nat × List Nat) :=
  [(2001, [1001]), (2002, [1002]), (2003, [1003]), (2004, [1001, 1002, 1003]), (2005, [1002]), (2007, [1003])]

/-- The variables other than clocks in the `dependencies` of an output, Clocks/FMI3.xml 25-30. -/
def inputsOf (r : Nat) : List Nat := if r = 2005 then [2006] else []

/-- The call activates one of the clocks, or it resets the instance or restores an FMU state. -/
def Disturbs (clocks : List Nat) : FMI3.Op F → Prop
  | .activateModelPartition clock _ => clock ∈ clocks
  | .reset => True
  | .setFMUState _ => True
  | _ => False

end Verif.Clocks
