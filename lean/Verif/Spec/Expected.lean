import Verif.History2
import Verif.History3

/-!
# Specification: the communication point an FMU expects next, and its stop time

Both are determined by the calls the importer has made and their results. A saved state that is
restored brings its own; histories with `SetFMUState` are therefore excluded where this is used.
-/

namespace Verif

/-- The communication point expected next and the stop time. -/
structure Clock (F : Type) where
  expected : F
  stop : F

variable {F : Type} [Arith F] [HasInf F]

/-- Of a new instance. -/
def Clock.new : Clock F := ⟨Arith.lit 0, Arith.lit 0⟩

/-- After one more FMI 2.0 call that returned `s`: setting up the experiment sets both, a successful
step moves the communication point to its end. -/
def Clock.after2 (k : Clock F) (op : FMI2.Op F) (s : Status) : Clock F :=
  if s = .OK then
    match op with
    | .setupExperiment start stopDefined stop => ⟨start, if stopDefined then stop else HasInf.inf⟩
    | .doStep ccp h => { k with expected := ccp +. h }
    | _ => k
  else k

/-- After a history of FMI 2.0 calls. -/
def Clock.run2 (k : Clock F) : List (FMI2.Op F) → List (Status × FMI2.Out F) → Clock F
  | op :: ops, (s, _) :: outs => (k.after2 op s).run2 ops outs
  | _, _ => k

/-- After one more FMI 3.0 call that returned `s` and the outputs `o`: entering Initialization Mode
sets both, a successful step moves the communication point to its end, or to the last successful time
if it returned early. -/
def Clock.after3 (k : Clock F) (op : FMI3.Op F) (s : Status) (o : FMI3.Out F) : Clock F :=
  if s = .OK then
    match op, o with
    | .enterInitializationMode start stopDefined stop, _ =>
      ⟨start, if stopDefined then stop else HasInf.inf⟩
    | .doStep ccp h _, .step r =>
      if r.earlyReturn = some true then
        match r.lastSuccessfulTime with
        | some t => { k with expected := t }
        | none => k
      else { k with expected := ccp +. h }
    | _, _ => k
  else k

/-- After a history of FMI 3.0 calls. -/
def Clock.run3 (k : Clock F) : List (FMI3.Op F) → List (Status × FMI3.Out F) → Clock F
  | op :: ops, (s, o) :: outs => (k.after3 op s o).run3 ops outs
  | _, _ => k

/-- The outputs of a step that asked to end the simulation. -/
def FMI3.Out.terminates : FMI3.Out F → Prop
  | .step r => r.terminateSimulation = some true
  | _ => False

end Verif
