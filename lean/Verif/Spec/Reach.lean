import Verif.History2
import Verif.History3

/-!
# Specification: worlds that API calls can produce
-/

namespace Verif
variable {F D : Type} [Arith F] [HasInf F]

/-- The importer has just received the instance `c`: no saved states, and byte buffers without
content. -/
structure FMI2.World.Initial (w : FMI2.World F D) (c : Comp F D) : Prop where
  inst : w.inst = c
  slots : ∀ i, w.slots i = none
  bufs : ∀ i b, w.bufs i = some b → b.image = none

/-- The world `w` is reached by some finite sequence of FMI 2.0 calls on an instance created for
the interface type `t`. -/
def FMI2.Reachable (m : Model F D) (t : IType) (w : FMI2.World F D) : Prop :=
  ∃ name guid resource functions loggingOn mem c l w₀ fuel ops outs,
    FMI2.instantiate m name t guid resource functions loggingOn mem = (some c, l) ∧
    w₀.Initial c ∧ FMI2.run m fuel w₀ ops = .ret (w, outs)

/-- The importer has just received the instance `c`. -/
structure FMI3.World.Initial (w : FMI3.World F D) (c : Comp F D) : Prop where
  inst : w.inst = c
  slots : ∀ i, w.slots i = none
  bufs : ∀ i b, w.bufs i = some b → b.image = none

/-- An instance returned by one of the three instantiation functions of FMI 3.0. -/
inductive FMI3.New (m : Model F D) : IType → Comp F D → Prop
  | me {name token resource loggingOn logger mem c l} :
      FMI3.instantiateModelExchange m name token resource loggingOn logger mem = (some c, l) →
      FMI3.New m .modelExchange c
  | cs {name token resource loggingOn eventModeUsed earlyReturnAllowed logger iu mem c l} :
      FMI3.instantiateCoSimulation m name token resource loggingOn eventModeUsed earlyReturnAllowed
        logger iu mem = (some c, l) →
      FMI3.New m .coSimulation c
  | se {name token resource loggingOn logger clockUpdate lock unlock mem c l} :
      FMI3.instantiateScheduledExecution m name token resource loggingOn logger clockUpdate lock
        unlock mem = (some c, l) →
      FMI3.New m .scheduledExecution c

/-- The world `w` is reached by some finite sequence of FMI 3.0 calls on an instance created for
the interface type `t`. -/
def FMI3.Reachable (m : Model F D) (t : IType) (w : FMI3.World F D) : Prop :=
  ∃ c w₀ fuel ops outs, FMI3.New m t c ∧ w₀.Initial c ∧ FMI3.run m fuel w₀ ops = .ret (w, outs)

/-- The world `w` is reached by FMI 3.0 calls without `fmi3EnterStepMode` in Initialization Mode,
which the FMI standard does not allow but the Reference FMUs accept. -/
inductive FMI3.ReachableProper (m : Model F D) (t : IType) : FMI3.World F D → Prop
  | new {c w} : FMI3.New m t c → w.Initial c → FMI3.ReachableProper m t w
  | call {w w' : FMI3.World F D} {fuel op s o} : FMI3.ReachableProper m t w →
      FMI3.step m fuel w op = .ret (w', s, o) →
      (op.fn = .enterStepMode → w.inst.ctx.state ≠ .initializationMode) →
      FMI3.ReachableProper m t w'

end Verif
