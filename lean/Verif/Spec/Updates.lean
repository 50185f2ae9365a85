import Verif.Core

/-!
# Specification: the calls of the intermediate update callback
-/

namespace Verif
variable {F D : Type}

/-- The times with which the callback `intermediateUpdate` was called, among the callbacks in a trace. -/
def updateTimes : List (Ev F) → List F
  | [] => []
  | .intermediateUpdate t :: l => t :: updateTimes l
  | _ :: l => updateTimes l

/-- The times of all calls of the callback that the importer has received from the instance. -/
def Comp.updateTimes (c : Comp F D) : List F := Verif.updateTimes c.mv.trace

end Verif
