import Verif.Importer.CoSim
import Verif.Spec.Legal
import Verif.Spec.Modes2
import Verif.Spec.Modes3
import Verif.Spec.WellFormed

/-!
# Specification: a complete Co-Simulation

What the programs examples/simulate_fmi2_cs.c and examples/simulate_fmi3_cs.c are meant to do, as relations between the worlds
before and after a step: no status is looked at and no failure is handled, since every call succeeds.
-/

namespace Verif
open Importer.CoSim

section
variable {F W O V : Type}

/-- The calls of the list return OK, with the outputs `vs`. -/
inductive AllOK (call : W → O → Outcome (W × Status × V)) : W → List O → W → List V → Prop
  | nil {w} : AllOK call w [] w []
  | cons {w w₁ w₂ o os v vs} : call w o = .ret (w₁, .OK, v) → AllOK call w₁ os w₂ vs → AllOK call w (o :: os) w₂ (v :: vs)

variable [Arith F]

/-- The communication point number `k`. -/
def Importer.CoSim.Program.point (P : Program F O) (k : Nat) : F := Arith.lit (k : Rat) *. P.h

/-- At the communication point `k` the variables are recorded in `row` and the inputs are set. -/
def Visits (call : W → O → Outcome (W × Status × V)) (P : Program F O) (k : Nat) (w w' : W) (row : Row F V) : Prop :=
  row.time = P.point k ∧ ∃ w₁ vs, AllOK call w P.record w₁ row.values ∧ AllOK call w₁ (P.inputs (P.point k)) w' vs

/-- The communication points `0, …, k - 1` are visited one after the other. `goes w t w'` says that the step from `t` on is made. -/
inductive Proceeds (call : W → O → Outcome (W × Status × V)) (goes : W → F → W → Prop) (P : Program F O) (w₀ : W) :
    Nat → W → List (Row F V) → Prop
  | zero : Proceeds call goes P w₀ 0 w₀ []
  | succ {k w w₁ w₂ rows row} : Proceeds call goes P w₀ k w rows → Visits call P k w w₁ row → goes w₁ (P.point k) w₂ →
      Proceeds call goes P w₀ (k + 1) w₂ (rows ++ [row])

/-- The simulation from `w₀` on with the results `rows`: either all communication points `0, …, N` are visited, or the FMU ends the
simulation in the step from one of them on. `ends w t last` says that it does this in the step from `t` on and that `last` is recorded then. -/
inductive Simulated (call : W → O → Outcome (W × Status × V)) (goes : W → F → W → Prop) (ends : W → F → List (Row F V) → Prop)
    (P : Program F O) (w₀ : W) (N : Nat) : List (Row F V) → Prop
  | complete {w w' rows row} : Proceeds call goes P w₀ N w rows → Visits call P N w w' row →
      Simulated call goes ends P w₀ N (rows ++ [row])
  | ended {k w w' rows row last} : k < N → Proceeds call goes P w₀ k w rows → Visits call P k w w' row → ends w' (P.point k) last →
      Simulated call goes ends P w₀ N (rows ++ row :: last)

end

section
variable {F D : Type} [Arith F] [HasInf F]

/-- `fmi2DoStep` makes the step. -/
def FMI2.Goes (m : Model F D) (fuel : Nat) (P : Program F (FMI2.Op F)) (w : FMI2.World F D) (t : F) (w' : FMI2.World F D) : Prop :=
  ∃ o, FMI2.step m fuel w (.doStep t P.h) = .ret (w', .OK, o)

/-- `fmi2DoStep` is discarded, the FMU says that the simulation is over and gives the last successful time, for which the variables are
recorded. -/
def FMI2.EndsSimulation (m : Model F D) (fuel : Nat) (P : Program F (FMI2.Op F)) (w : FMI2.World F D) (t : F)
    (last : List (Row F (FMI2.Out F))) : Prop :=
  ∃ w₁ w₂ w₃ o t' vs, FMI2.step m fuel w (.doStep t P.h) = .ret (w₁, .Discard, o) ∧
    AllOK (FMI2.step m fuel) w₁ [.getBooleanStatus .terminated (some false), .getRealStatus .lastSuccessfulTime (some (Arith.lit 0))] w₂
      [.bool (some true), .real (some t')] ∧
    AllOK (FMI2.step m fuel) w₂ P.record w₃ vs ∧ last = [⟨t', vs⟩]

/-- `fmi3DoStep` makes the step. -/
def FMI3.Goes (m : Model F D) (fuel : Nat) (P : Program F (FMI3.Op F)) (w : FMI3.World F D) (t : F) (w' : FMI3.World F D) : Prop :=
  ∃ r, FMI3.step m fuel w (.doStep t P.h ⟨some false, some false, some false, some (Arith.lit 0)⟩) = .ret (w', .OK, .step r) ∧
    r.terminateSimulation = some false

/-- `fmi3DoStep` asks to end the simulation; nothing more is recorded. -/
def FMI3.EndsSimulation (m : Model F D) (fuel : Nat) (P : Program F (FMI3.Op F)) (w : FMI3.World F D) (t : F)
    (last : List (Row F (FMI3.Out F))) : Prop :=
  ∃ w' r, FMI3.step m fuel w (.doStep t P.h ⟨some false, some false, some false, some (Arith.lit 0)⟩) = .ret (w', .OK, .step r) ∧
    r.terminateSimulation = some true ∧ last = []

/-- A call that gets or sets variables and is legal in a Co-Simulation instance in the mode. -/
def FMI2.Access (m : Model F D) (p : Profile F D) (mode : Mode) (op : FMI2.Op F) : Prop :=
  op.fn ∈ [FMI2.Fn.getReal, .getInteger, .getBoolean, .getString, .setReal, .setInteger, .setBoolean, .setString] ∧
  mode ∈ FMI2.Spec.allowedIn op.fn ∧
  ∀ w : FMI2.World F D, w.inst.ctx.typ = .coSimulation → w.inst.ctx.state = mode → FMI2.Args m p w op ∧ FMI2.WellFormed w op

/-- A call that gets or sets variables and is legal in a Co-Simulation instance in the mode. -/
def FMI3.Access (m : Model F D) (p : Profile F D) (mode : Mode) (op : FMI3.Op F) : Prop :=
  ((∃ t, op.fn = .get t) ∨ ∃ t, op.fn = .set t) ∧
  mode ∈ FMI3.Spec.allowedIn op.fn ∧
  ∀ w : FMI3.World F D, w.inst.ctx.typ = .coSimulation → w.inst.ctx.state = mode → FMI3.Args m p w op ∧ FMI3.WellFormed w op

/-- The start values, inputs and recorded variables of the program are those of the FMU. -/
structure FMI2.Fits (m : Model F D) (p : Profile F D) (P : Program F (FMI2.Op F)) : Prop where
  start : ∀ op ∈ P.start, FMI2.Access m p .instantiated op
  inputs : ∀ t, ∀ op ∈ P.inputs t, FMI2.Access m p .stepComplete op
  record : ∀ op ∈ P.record, FMI2.Access m p .stepComplete op

/-- The start values, inputs and recorded variables of the program are those of the FMU. -/
structure FMI3.Fits (m : Model F D) (p : Profile F D) (P : Program F (FMI3.Op F)) : Prop where
  start : ∀ op ∈ P.start, FMI3.Access m p .instantiated op
  inputs : ∀ t, ∀ op ∈ P.inputs t, FMI3.Access m p .stepMode op
  record : ∀ op ∈ P.record, FMI3.Access m p .stepMode op

end
end Verif
