import Verif.Spec.Reach
import Verif.RefFMUs
import Verif.Spec.Uses

/-!
# Specification: the calls after a reset

FMI 2.0 requires `fmi2SetupExperiment` before `fmi2EnterInitializationMode` (FMI 2.0.4, section 2.1.6). FMI 3.0 does not allow
`fmi3EnterStepMode` in Initialization Mode, although the Reference FMUs accept it.
-/

namespace Verif
variable {F D : Type} [Arith F] [HasInf F]

/-- Calls an importer may make before `fmi2SetupExperiment`, except those that save or restore FMU states. -/
def FMI2.BeforeSetup (op : FMI2.Op F) : Prop :=
  op.fn ≠ .enterInitializationMode ∧ op.slots = [] ∧ op.bufs = []

/-- `fmi3EnterStepMode` is not called in Initialization Mode. -/
def FMI3.ProperCalls (m : Model F D) (fuel : Nat) (w : FMI3.World F D) : List (FMI3.Op F) → Prop
  | [] => True
  | op :: ops => (op.fn = .enterStepMode → w.inst.ctx.state ≠ .initializationMode) ∧
      ∀ w' s o, FMI3.step m fuel w op = .ret (w', s, o) → FMI3.ProperCalls m fuel w' ops

/-- The FMUs built for FMI 2.0 that never ask the importer to terminate the simulation: every one but Stair. -/
inductive Endless2 {F : Type} [Arith F] : {D : Type} → Model F D → Prop
  | bouncingBall : Endless2 BouncingBall.model
  | dahlquist : Endless2 Dahlquist.model
  | feedthrough : Endless2 (Feedthrough.model false)
  | resource (fs : Resource.FileSystem) : Endless2 (Resource.model false fs)
  | vanDerPol : Endless2 VanDerPol.model

/-- The FMUs built for FMI 3.0 with scalar variables that never ask the importer to terminate the simulation: every one but Stair
and StateSpace. -/
inductive Endless3 {F : Type} [Arith F] : {D : Type} → Model F D → Prop
  | bouncingBall : Endless3 BouncingBall.model
  | clocks : Endless3 Clocks.model
  | dahlquist : Endless3 Dahlquist.model
  | feedthrough : Endless3 (Feedthrough.model true)
  | resource (fs : Resource.FileSystem) : Endless3 (Resource.model true fs)
  | roberts : Endless3 Roberts.model
  | vanDerPol : Endless3 VanDerPol.model

end Verif
