import Verif.Importer.Euler
import Verif.Spec.Schedule
import Verif.Spec.Session

/-! # Specification: simulation with the importer for Model Exchange, and with Co-Simulation -/

namespace Verif
variable {F D : Type} [Arith F] [HasInf F]

/-- The constants of the importer for an FMU: `NX`, `NZ` and `FIXED_SOLVER_STEP` are those of the FMU. This is what examples/simulate_fmi2_me.c 16-28 and
examples/simulate_fmi3_me.c 16-28 are written for; no file defines `NX` and `NZ`, so the programs as built have 0 for both (`Macros.built` in
Importer/ModelExchange.lean, C78). -/
def Importer.Euler.Config.of (m : Model F D) (stopTime : F) (fmi2 : Bool) : Config F :=
  ⟨m.maxNX, m.maxNZ, m.h, stopTime, fmi2⟩

open Importer.Euler

/-- The importer for FMI 2.0 Model Exchange took over an instance in `w₁`, after a successful end of the initialisation,
went through its loop `n` times (less than 2⁶⁴) without leaving it, and left the instance in `w₂`. `found` says
whether it found a state event in the last pass, which it would handle in the next one. -/
def FMI2.Integrates (m : Model F D) (w₁ w₂ : FMI2.World F D) (n : Nat) (found : Bool) : Prop :=
  n < 2 ^ 64 ∧ ∃ w f₁ o stopTime vrs fuel s₀ s, FMI2.Reachable m .modelExchange w ∧
    FMI2.step m f₁ w .exitInitializationMode = .ret (w₁, .OK, o) ∧
    initial (api2 m vrs) (.of m stopTime true) fuel (.start (.of m stopTime true) w₁) = .ret (true, s₀) ∧
    passes (api2 m vrs) (.of m stopTime true) fuel n s₀ = .ret (true, s) ∧ s.w = w₂ ∧ s.stateEvent = found

/-- The importer for FMI 3.0 Model Exchange; as for FMI 2.0. -/
def FMI3.Integrates (m : Model F D) (w₁ w₂ : FMI3.World F D) (n : Nat) (found : Bool) : Prop :=
  n < 2 ^ 64 ∧ ∃ w f₁ o stopTime vrs fuel s₀ s, FMI3.Reachable m .modelExchange w ∧
    FMI3.step m f₁ w .exitInitializationMode = .ret (w₁, .OK, o) ∧
    initial (api3 m vrs) (.of m stopTime false) fuel (.start (.of m stopTime false) w₁) = .ret (true, s₀) ∧
    passes (api3 m vrs) (.of m stopTime false) fuel n s₀ = .ret (true, s) ∧ s.w = w₂ ∧ s.stateEvent = found

/-- An FMI 2.0 Co-Simulation instance ended its initialisation successfully in `w₁` and was then simulated until `w₂`. Nothing was set,
no call failed, and the solver made less than 2⁶⁴ steps. -/
def FMI2.Stepped (m : Model F D) (w₁ w₂ : FMI2.World F D) : Prop :=
  ∃ w f₁ o fuel ops outs, FMI2.Reachable m .coSimulation w ∧ FMI2.step m f₁ w .exitInitializationMode = .ret (w₁, .OK, o) ∧
    (∀ op ∈ ops, ¬ FMI2.Interferes op) ∧ FMI2.run m fuel w₁ ops = .ret (w₂, outs) ∧ (∀ p ∈ outs, p.1 ≠ .Error) ∧
    fuel * ops.length < 2 ^ 64

/-- An FMI 3.0 Co-Simulation instance ended its initialisation successfully in `w₁` and was then simulated until `w₂` by
an importer that handles all reported events. Nothing was set, all calls succeeded, and the solver made less than 2⁶⁴ steps. -/
def FMI3.Stepped (m : Model F D) (w₁ w₂ : FMI3.World F D) : Prop :=
  ∃ p, FMI3.Handles m (FMI3.ReachableProper m .coSimulation) p w₁ w₂

/-- Two FMI 2.0 instances report the same values of the variables `vars`. -/
def FMI2.SameValues (vars : List (VType × Nat)) (m : Model F D) (w w' : FMI2.World F D) : Prop :=
  ∀ t r, (t, r) ∈ vars → ∃ v, FMI2.Reads m w t r v ∧ FMI2.Reads m w' t r v

/-- The time after `n` steps of size `h`, as the importer for Model Exchange computes it. -/
def timeAfter (h : F) (n : Nat) : F := if n = 0 then Arith.lit 0 else Arith.lit (n : Rat) *. h

/-- The time after `n` steps of size `h` from time 0 on, as the FMU computes it in Co-Simulation (C30). -/
def startedAt (h : F) (n : Nat) : F := if n = 0 then Arith.lit 0 else gridPoint (Arith.lit 0) h n

end Verif
