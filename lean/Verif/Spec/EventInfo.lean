import Verif.History2
import Verif.History3
import Verif.RefFMUs
import Verif.Spec.Uses
import Verif.Spec.Observe
import Verif.Spec.Close
import Verif.XRat

/-!
# Specification: nominal values and event information
-/

namespace Verif
variable {F : Type} [Arith F]

/-- The nominal values of the continuous states in the FMI2.xml files: no `nominal` attribute is given, and the default is 1. -/
inductive FMI2.Nominals : {D : Type} → Model F D → List Rat → Prop
  | bouncingBall : FMI2.Nominals BouncingBall.model [1, 1]
  | dahlquist : FMI2.Nominals Dahlquist.model [1]
  | feedthrough : FMI2.Nominals (Feedthrough.model false) []
  | resource (fs : Resource.FileSystem) : FMI2.Nominals (Resource.model false fs) []
  | stair : FMI2.Nominals Stair.model []
  | vanDerPol : FMI2.Nominals VanDerPol.model [1, 1]

/-- The nominal values of the continuous states in the FMI3.xml files; only Roberts/FMI3.xml 37, 39 has `nominal` attributes. Clocks has
no Model Exchange. The number of states of StateSpace is a structural parameter, so it is not listed. -/
inductive FMI3.Nominals : {D : Type} → Model F D → List Rat → Prop
  | bouncingBall : FMI3.Nominals BouncingBall.model [1, 1]
  | dahlquist : FMI3.Nominals Dahlquist.model [1]
  | feedthrough : FMI3.Nominals (Feedthrough.model true) []
  | resource (fs : Resource.FileSystem) : FMI3.Nominals (Resource.model true fs) []
  | roberts : FMI3.Nominals Roberts.model [1 / 10000, 1 / 100]
  | stair : FMI3.Nominals Stair.model []
  | vanDerPol : FMI3.Nominals VanDerPol.model [1, 1]

/-- The FMUs for FMI 2.0 without time events: all but Stair. -/
inductive FMI2.Timeless : {D : Type} → Model F D → Prop
  | bouncingBall : FMI2.Timeless BouncingBall.model
  | dahlquist : FMI2.Timeless Dahlquist.model
  | feedthrough : FMI2.Timeless (Feedthrough.model false)
  | resource (fs : Resource.FileSystem) : FMI2.Timeless (Resource.model false fs)
  | vanDerPol : FMI2.Timeless VanDerPol.model

/-- The FMUs for FMI 3.0 without time events: all but Stair. -/
inductive FMI3.Timeless : {D : Type} → Model F D → Prop
  | bouncingBall : FMI3.Timeless BouncingBall.model
  | clocks : FMI3.Timeless Clocks.model
  | dahlquist : FMI3.Timeless Dahlquist.model
  | feedthrough : FMI3.Timeless (Feedthrough.model true)
  | resource (fs : Resource.FileSystem) : FMI3.Timeless (Resource.model true fs)
  | roberts : FMI3.Timeless Roberts.model
  | stateSpace : FMI3.Timeless StateSpace.model
  | vanDerPol : FMI3.Timeless VanDerPol.model

variable [HasInf F] {D : Type}

/-- The importer gets the same answer (status and values) from `fmi2GetContinuousStates`. -/
def FMI2.SameStates (m : Model F D) (w w' : FMI2.World F D) : Prop :=
  ∀ fuel p n, (FMI2.step m fuel w (.getContinuousStates p n)).shown = (FMI2.step m fuel w' (.getContinuousStates p n)).shown

/-- The importer gets the same answer (status and values) from `fmi3GetContinuousStates`. -/
def FMI3.SameStates (m : Model F D) (w w' : FMI3.World F D) : Prop :=
  ∀ fuel p n, (FMI3.step m fuel w (.getContinuousStates p n)).shown = (FMI3.step m fuel w' (.getContinuousStates p n)).shown

/-- The calls after which an instance may have forgotten the announced time event, or have handled it. -/
def FMI2.Forgets (fn : FMI2.Fn) : Prop := fn ∈ [FMI2.Fn.doStep, .newDiscreteStates, .setFMUstate, .reset]

/-- The calls after which an instance may have forgotten the announced time event, or have handled it. -/
def FMI3.Forgets (fn : FMI3.Fn) : Prop := fn ∈ [FMI3.Fn.doStep, .updateDiscreteStates, .setFMUState, .reset]

/-- An event update of Stair at time `t` with counter `n`, when a time event is announced for time `T`: if the time has come, the counter
is increased by one and the next event is announced one time unit later, else nothing happens. The simulation shall be ended if
and only if the counter is 10. -/
def FMI2.StairEvent (T t : Rat) (n : Int) (w' : FMI2.World XRat Stair.Data) (o : FMI2.Out XRat) : Prop :=
  ∃ i, o = .info (some i) ∧ i.nextEventTimeDefined = true ∧
    (i.terminateSimulation = true ↔ FMI2.ReadsInteger Stair.model w' 1 10) ∧
    (Close t T → FMI2.ReadsInteger Stair.model w' 1 (n + 1) ∧ i.nextEventTime = .fin (T + 1)) ∧
    (¬ Close t T → FMI2.ReadsInteger Stair.model w' 1 n ∧ i.nextEventTime = .fin T)

/-- The same for FMI 3.0, for the outputs for which the importer passed a pointer. -/
def FMI3.StairEvent (T t : Rat) (n : Int) (w' : FMI3.World XRat Stair.Data) (o : FMI3.Out XRat) : Prop :=
  ∃ i, o = .event i ∧ (∀ b, i.nextEventTimeDefined = some b → b = true) ∧
    (∀ b, i.terminateSimulation = some b → (b = true ↔ FMI3.Reads Stair.model w' .int32 1 (10 : Int))) ∧
    (Close t T → FMI3.Reads Stair.model w' .int32 1 (n + 1) ∧ ∀ q, i.nextEventTime = some q → q = .fin (T + 1)) ∧
    (¬ Close t T → FMI3.Reads Stair.model w' .int32 1 n ∧ ∀ q, i.nextEventTime = some q → q = .fin T)

end Verif
