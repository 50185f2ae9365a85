import Verif.History2
import Verif.History3
import Verif.RefFMUs

/-!
# Specification: calls with well-formed arguments

A call is well formed if every array argument has at least as many elements as the caller announces
and every output pointer the function must write through is not NULL. A call in which no array is too
short may still be refused with an error.
-/

namespace Verif
variable {F D : Type}

/-- The array has at least `n` elements; it may only be NULL if no elements are announced. -/
def Ptr.Has {α : Type} (p : Ptr α) (n : Nat) : Prop := n = 0 ∨ ∃ l, p = some l ∧ n ≤ l.length

/-- The values passed to a Set function are not NULL pointers themselves, and binaries are as long as
announced. -/
def VType.Good : (t : VType) → t.Val F → Prop
  | .string, (s : Ptr UInt8) => s ≠ none
  | .binary, (b : CBinary) => ∃ bytes, b.data = some bytes ∧ b.size ≤ bytes.length
  | _, _ => True

/-- Every element of the array is good. -/
def Ptr.Good {t : VType} (p : Ptr (t.Val F)) : Prop := ∀ l, p = some l → ∀ v ∈ l, t.Good v

/-- The byte buffer has at least `n` bytes. -/
def Buffer.Has (b : Option (Buffer F D)) (n : Nat) : Prop := ∃ x, b = some x ∧ n ≤ x.capacity

/-- The byte buffer holds a serialized FMU state. -/
def Buffer.Filled (b : Option (Buffer F D)) : Prop := ∃ x s, b = some x ∧ x.image = some s

/-- An FMI 2.0 call with well-formed arguments. -/
def FMI2.WellFormed (w : FMI2.World F D) : FMI2.Op F → Prop
  | .setDebugLogging _ n cats => cats.Has n
  | .getReal vr n v => vr.Has n ∧ v.Has n
  | .getInteger vr n v => vr.Has n ∧ v.Has n
  | .getBoolean vr n v => vr.Has n ∧ v.Has n
  | .getString vr n v => vr.Has n ∧ v.Has n
  | .setReal vr n v => vr.Has n ∧ v.Has n
  | .setInteger vr n v => vr.Has n ∧ v.Has n
  | .setBoolean vr n v => vr.Has n ∧ v.Has n
  | .setString vr n v => vr.Has n ∧ v.Has n ∧ Ptr.Good (F := F) (t := .string) v
  | .serializedFMUstateSize size => size ≠ none
  | .serializeFMUstate _ buf size => Buffer.Has (w.bufs buf) size
  | .deSerializeFMUstate buf size _ => Buffer.Has (w.bufs buf) size ∧ Buffer.Filled (w.bufs buf)
  | .getDirectionalDerivative u nu k nk dvKnown dvUnknown =>
    u.Has nu ∧ k.Has nk ∧ dvKnown.Has nk ∧ dvUnknown.Has nu
  | .getRealOutputDerivatives vr n order v => vr.Has n ∧ order.Has n ∧ v.Has n
  | .getRealStatus _ v => v ≠ none
  | .getBooleanStatus _ v => v ≠ none
  | .newDiscreteStates info => info ≠ none
  | .setContinuousStates x n => x.Has n
  | .getDerivatives x n => x.Has n
  | .getEventIndicators x n => x.Has n
  | .getContinuousStates x n => x.Has n
  | .getNominals x n => x.Has n
  | _ => True

/-- An FMI 3.0 call with well-formed arguments. -/
def FMI3.WellFormed (w : FMI3.World F D) : FMI3.Op F → Prop
  | .setDebugLogging _ n cats => cats.Has n
  | .get _ vr n v nv => vr.Has n ∧ v.Has nv
  | .getClock vr n v => vr.Has n ∧ v.Has n
  | .set _ vr n v nv => vr.Has n ∧ v.Has nv ∧ v.Good
  | .setClock vr n v => vr.Has n ∧ v.Has n
  | .serializedFMUStateSize size => size ≠ none
  | .serializeFMUState _ buf size => Buffer.Has (w.bufs buf) size
  | .deserializeFMUState buf size _ => Buffer.Has (w.bufs buf) size ∧ Buffer.Filled (w.bufs buf)
  | .getDirectionalDerivative u nu k nk seed sens =>
    u.Has nu ∧ k.Has nk ∧ seed.Has nk ∧ sens.Has nu
  | .getAdjointDerivative u nu k nk seed sens =>
    u.Has nu ∧ k.Has nk ∧ seed.Has nu ∧ sens.Has nk
  | .getIntervalDecimal vr n i q => vr.Has n ∧ i.Has n ∧ q.Has n
  | .setContinuousStates x n => x.Has n
  | .getDerivatives x n => x.Has n
  | .getEventIndicators x n => x.Has n
  | .getContinuousStates x n => x.Has n
  | .getNominals x n => x.Has n
  | .getNumberOfEventIndicators n => n ≠ none
  | .getNumberOfContinuousStates n => n ≠ none
  | .getOutputDerivatives vr n orders v => vr.Has n ∧ orders.Has n ∧ v.Has n
  | .doStep _ _ out => out.eventHandlingNeeded ≠ none ∧ out.terminateSimulation ≠ none ∧
    out.earlyReturn ≠ none ∧ out.lastSuccessfulTime ≠ none
  | _ => True

/-- The call does not announce fewer values than variables. -/
def FMI3.EnoughValues : FMI3.Op F → Prop
  | .set _ _ nvr _ nValues => nvr ≤ nValues
  | _ => True

/-- The call executes undefined behaviour: it reads or writes through a NULL pointer or outside an
array, or overflows a signed integer. -/
def FMI2.Undefined [Arith F] [HasInf F] (m : Model F D) (w : FMI2.World F D) (op : FMI2.Op F) : Prop :=
  ∃ fuel, FMI2.step m fuel w op = .ub

/-- The call executes undefined behaviour. -/
def FMI3.Undefined [Arith F] [HasInf F] (m : Model F D) (w : FMI3.World F D) (op : FMI3.Op F) : Prop :=
  ∃ fuel, FMI3.step m fuel w op = .ub

end Verif
