import Verif.Importer.Inputs
import Verif.Spec.SimulationME
import Verif.Spec.Modes2
import Verif.Spec.Modes3

/-!
# Specification: Model Exchange with start values and inputs
-/

namespace Verif
open Importer.Euler

/-- The rows for the times `t 0, …, t (k - 1)`: one for each of them, and a second one for those at which an input changes. -/
def inputTimes {F O : Type} [Arith F] (inp : Inputs F O) (t : Nat → F) (k : Nat) : List F :=
  (List.range k).flatMap fun i => if inp.next (t i) <=. t i then [t i, t i] else [t i]

section
variable {F D : Type} [Arith F] [HasInf F]

/-- A call that sets variables and is legal in a Model Exchange instance in the mode. -/
def FMI2.Sets (m : Model F D) (p : Profile F D) (mode : Mode) (op : FMI2.Op F) : Prop :=
  op.fn ∈ [FMI2.Fn.setReal, .setInteger, .setBoolean, .setString] ∧
  mode ∈ FMI2.Spec.allowedIn op.fn ∧
  ∀ w : FMI2.World F D, w.inst.ctx.typ = .modelExchange → w.inst.ctx.state = mode → FMI2.Args m p w op ∧ FMI2.WellFormed w op

/-- A call that sets variables and is legal in a Model Exchange instance in the mode. -/
def FMI3.Sets (m : Model F D) (p : Profile F D) (mode : Mode) (op : FMI3.Op F) : Prop :=
  (∃ t, op.fn = .set t) ∧ mode ∈ FMI3.Spec.allowedIn op.fn ∧
  ∀ w : FMI3.World F D, w.inst.ctx.typ = .modelExchange → w.inst.ctx.state = mode → FMI3.Args m p w op ∧ FMI3.WellFormed w op

/-- Start values are set before the initialization, continuous inputs during the initialization, in Event Mode and in Continuous-Time Mode,
discrete inputs during the initialization and in Event Mode. All these calls are legal. -/
structure FMI2.LegalInputs (m : Model F D) (p : Profile F D) (inp : Inputs F (FMI2.Op F)) : Prop where
  start : ∀ op ∈ inp.start, FMI2.Sets m p .instantiated op
  continuous : ∀ t b, ∀ op ∈ inp.continuous t b, ∀ mode ∈ [Mode.initializationMode, .eventMode, .continuousTimeMode], FMI2.Sets m p mode op
  discrete : ∀ t, ∀ op ∈ inp.discrete t, ∀ mode ∈ [Mode.initializationMode, .eventMode], FMI2.Sets m p mode op

/-- Start values are set before the initialization, continuous inputs during the initialization, in Event Mode and in Continuous-Time Mode,
discrete inputs during the initialization and in Event Mode. All these calls are legal. -/
structure FMI3.LegalInputs (m : Model F D) (p : Profile F D) (inp : Inputs F (FMI3.Op F)) : Prop where
  start : ∀ op ∈ inp.start, FMI3.Sets m p .instantiated op
  continuous : ∀ t b, ∀ op ∈ inp.continuous t b, ∀ mode ∈ [Mode.initializationMode, .eventMode, .continuousTimeMode], FMI3.Sets m p mode op
  discrete : ∀ t, ∀ op ∈ inp.discrete t, ∀ mode ∈ [Mode.initializationMode, .eventMode], FMI3.Sets m p mode op

end
end Verif
