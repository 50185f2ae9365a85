import Verif.Spec.Simulation

/-!
# Specification: what the status of the Co-Simulation programs says
-/

namespace Verif
open Importer.CoSim

section
variable {F W O V : Type} [Arith F]

/-- A run of the program in which every call succeeds, from the end of the initialization on. Either the communication points are visited until the stop time is reached,
or the FMU ends the simulation in the step from one of them on; then the instance is terminated. `goes w t w'` says that the step from `t` on is made, and
`ends w t w' last` that the FMU ends the simulation in it and `last` is recorded. -/
inductive Completed (call : W → O → Outcome (W × Status × V)) (goes : W → F → W → Prop) (ends : W → F → W → List (Row F V) → Prop) (terminate : O)
    (P : Program F O) (w₀ : W) : List (Row F V) → Prop
  | complete {k w w' w'' rows row v} : Proceeds call goes P w₀ k w rows → Visits call P k w w' row → (∀ j < k, (P.stopTime <=. P.point j) = false) →
      (P.stopTime <=. P.point k) = true → call w' terminate = .ret (w'', .OK, v) → Completed call goes ends terminate P w₀ (rows ++ [row])
  | ended {k w w' w₁ w'' rows row last v} : Proceeds call goes P w₀ k w rows → Visits call P k w w' row → (∀ j ≤ k, (P.stopTime <=. P.point j) = false) →
      ends w' (P.point k) w₁ last → call w₁ terminate = .ret (w'', .OK, v) → Completed call goes ends terminate P w₀ (rows ++ row :: last)

omit [Arith F] in
/-- Some call fails, after calls that succeed. -/
def SomeCallFails (call : W → O → Outcome (W × Status × V)) (w₀ : W) : Prop :=
  ∃ ops w vs op w' s v, AllOK call w₀ ops w vs ∧ call w op = .ret (w', s, v) ∧ s ≠ .OK

omit [Arith F] in
/-- A history in which every call succeeds, with the rows that are recorded in it: the variables are read by the calls `record` one after the other. -/
inductive Writes (call : W → O → Outcome (W × Status × V)) (record : List O) (w₀ : W) : W → List (Row F V) → Prop
  | start : Writes call record w₀ w₀ []
  | call {w w' rows o v} : Writes call record w₀ w rows → call w o = .ret (w', .OK, v) → Writes call record w₀ w' rows
  | record {w w' rows t vs} : Writes call record w₀ w rows → AllOK call w record w' vs → Writes call record w₀ w' (rows ++ [⟨t, vs⟩])

end

section
variable {F D : Type} [Arith F] [HasInf F]

/-- `fmi2DoStep` makes the step, or it is discarded and the FMU does not say that the simulation is over. -/
def FMI2.GoesOn (m : Model F D) (fuel : Nat) (P : Program F (FMI2.Op F)) (w : FMI2.World F D) (t : F) (w' : FMI2.World F D) : Prop :=
  FMI2.Goes m fuel P w t w' ∨
  ∃ w₁ o o', FMI2.step m fuel w (.doStep t P.h) = .ret (w₁, .Discard, o) ∧
    FMI2.step m fuel w₁ (.getBooleanStatus .terminated (some false)) = .ret (w', .OK, o') ∧ o' ≠ .bool (some true)

/-- `fmi2DoStep` is discarded, the FMU says that the simulation is over and gives the last successful time, for which the variables are
recorded. -/
def FMI2.EndsAt (m : Model F D) (fuel : Nat) (P : Program F (FMI2.Op F)) (w : FMI2.World F D) (t : F) (w' : FMI2.World F D)
    (last : List (Row F (FMI2.Out F))) : Prop :=
  ∃ w₁ w₂ o t' vs, FMI2.step m fuel w (.doStep t P.h) = .ret (w₁, .Discard, o) ∧
    AllOK (FMI2.step m fuel) w₁ [.getBooleanStatus .terminated (some false), .getRealStatus .lastSuccessfulTime (some (Arith.lit 0))] w₂
      [.bool (some true), .real (some t')] ∧
    AllOK (FMI2.step m fuel) w₂ P.record w' vs ∧ last = [⟨t', vs⟩]

/-- `fmi3DoStep` makes the step and does not ask to end the simulation. -/
def FMI3.GoesOn (m : Model F D) (fuel : Nat) (h : F) (w : FMI3.World F D) (t : F) (w' : FMI3.World F D) : Prop :=
  ∃ r, FMI3.step m fuel w (.doStep t h ⟨some false, some false, some false, some (Arith.lit 0)⟩) = .ret (w', .OK, .step r) ∧
    r.terminateSimulation ≠ some true

/-- `fmi3DoStep` asks to end the simulation; nothing more is recorded. -/
def FMI3.EndsAt {V : Type} (m : Model F D) (fuel : Nat) (h : F) (w : FMI3.World F D) (t : F) (w' : FMI3.World F D)
    (last : List (Row F V)) : Prop :=
  ∃ r, FMI3.step m fuel w (.doStep t h ⟨some false, some false, some false, some (Arith.lit 0)⟩) = .ret (w', .OK, .step r) ∧
    r.terminateSimulation = some true ∧ last = []

end
end Verif
