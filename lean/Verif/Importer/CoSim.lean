import Verif.History2
import Verif.History3

/-!
# Importer: Co-Simulation, examples/simulate_fmi2_cs.c and examples/simulate_fmi3_cs.c

The two programs are the same up to the names of the API functions and the way a step ends the simulation, so there is one
model of the loop with these as parameters. Not modelled: `setUp` (opening the files and loading the shared library,
examples/util.h 194-222), the format of the output file, releasing the instance and closing the files. Simplifications: the
model calls the functions of the FMU instead of the wrapper functions `FMI2*`, `FMI3*`, which only pass on the arguments and the
status; a row is written only if all values could be read (examples/BouncingBall.c 33 writes it in any case). The parts that differ
between the FMUs (`applyStartValues`, `applyContinuousInputs`, `applyDiscreteInputs`, `recordVariables` in examples/<FMU>.c) are lists of API calls.
-/

namespace Verif.Importer.CoSim
open Verif

/-- How the loop goes on after a step: with the next one, or it ends, for FMI 2.0 after recording the variables at the last
successful time. examples/simulate_fmi2_cs.c 40-57, examples/simulate_fmi3_cs.c 43-48. -/
inductive Next (F : Type)
  | goOn
  | stop (last : Option F)
  deriving DecidableEq, Repr

/-- The functions of an instance that the programs use. `W` is the world of the instance, `O` the type of calls, `V` that of
the outputs of the calls. The calls in examples/simulate_fmi2_cs.c 21-57, examples/simulate_fmi3_cs.c 24-48 and examples/util.h 229-240. -/
structure Api (F W O V : Type) where
  call : W → O → Outcome (W × Status × V)
  /-- the step at a time, with its consequences -/
  advance : W → F → Outcome (W × Status × Next F)
  terminate : O

/-- A program: what examples/<FMU>.c adds to it, and the constants `h` and `stopTime`, examples/util.h 59-61, 67-69. -/
structure Program (F O : Type) where
  /-- `applyStartValues` -/
  start : List O := []
  /-- `applyContinuousInputs` and `applyDiscreteInputs` -/
  inputs : F → List O := fun _ => []
  /-- the calls of `recordVariables` -/
  record : List O
  h : F
  stopTime : F

/-- A row of the output file. For example examples/BouncingBall.c 33. -/
structure Row (F V : Type) where
  time : F
  values : List V
  deriving DecidableEq, Repr

/-- Calls in the macro `CALL`, examples/util.h 45: the first one that fails ends the sequence. -/
def calls {W O V : Type} (call : W → O → Outcome (W × Status × V)) : List O → W → Outcome (W × Status × List V)
  | [], w => .ret (w, .OK, [])
  | o :: os, w => call w o >>- fun (w, s, v) =>
    if s = .OK then calls call os w >>- fun (w, s, vs) => .ret (w, s, v :: vs) else .ret (w, s, [v])

variable {F W O V : Type}

/-- `tearDown`, examples/util.h 224-267. -/
def tearDown (api : Api F W O V) (w : W) (status : Status) (rows : List (Row F V)) : Outcome (Status × List (Row F V)) :=
  if status.rank < Status.Error.rank then
    api.call w api.terminate >>- fun (_, s, _) => .ret (if status.rank < s.rank then s else status, rows)
  else .ret (status, rows)

/-- A sequence of calls; if one of them fails, the program goes on with `tearDown`.
The macro `CALL`, examples/util.h 45, and `TERMINATE: return tearDown()`, examples/simulate_fmi2_cs.c 61-62. -/
def CALLS (api : Api F W O V) (ops : List O) (w : W) (rows : List (Row F V))
    (k : W → List V → Outcome (Status × List (Row F V))) : Outcome (Status × List (Row F V)) :=
  calls api.call ops w >>- fun (w, s, vs) => if s = .OK then k w vs else tearDown api w s rows

/-- The loop, examples/simulate_fmi2_cs.c 25-59, examples/simulate_fmi3_cs.c 30-49; `n` bounds the number of passes. -/
def loop [Arith F] (api : Api F W O V) (P : Program F O) : (n step : Nat) → W → List (Row F V) → Outcome (Status × List (Row F V))
  | 0, _, _, _ => .hang
  | n + 1, step, w, rows =>
    let time := Arith.lit (step : Rat) *. P.h
    CALLS api P.record w rows fun w vs =>
    let rows := rows ++ [⟨time, vs⟩]
    CALLS api (P.inputs time) w rows fun w _ =>
    if P.stopTime <=. time then tearDown api w .OK rows
    else api.advance w time >>- fun (w, s, next) =>
      if s = .OK then
        match next with
        | .goOn => loop api P n (step + 1) w rows
        | .stop none => tearDown api w .OK rows
        | .stop (some t) => CALLS api P.record w rows fun w vs => tearDown api w .OK (rows ++ [⟨t, vs⟩])
      else tearDown api w s rows

variable {D : Type} [Arith F] [HasInf F]

/-- The step of the FMI 2.0 program, examples/simulate_fmi2_cs.c 38-57. The local variables are not initialized; the model passes `false`
and 0. -/
def advance2 (m : Model F D) (fuel : Nat) (h : F) (w : FMI2.World F D) (time : F) : Outcome (FMI2.World F D × Status × Next F) :=
  FMI2.step m fuel w (.doStep time h) >>- fun (w, s, _) =>
  if s = .Discard then
    FMI2.step m fuel w (.getBooleanStatus .terminated (some false)) >>- fun (w, s, o) =>
    if s = .OK then
      match o with
      | .bool (some true) =>
        FMI2.step m fuel w (.getRealStatus .lastSuccessfulTime (some (Arith.lit 0))) >>- fun (w, s, o) =>
        match o with
        | .real t => .ret (w, s, .stop t)
        | _ => .ret (w, s, .goOn)
      | _ => .ret (w, .OK, .goOn)
    else .ret (w, s, .goOn)
  else .ret (w, s, .goOn)

/-- The functions of an FMI 2.0 instance. The calls in examples/simulate_fmi2_cs.c 21-57. -/
def api2 (m : Model F D) (fuel : Nat) (h : F) : Api F (FMI2.World F D) (FMI2.Op F) (FMI2.Out F) where
  call := FMI2.step m fuel
  advance := advance2 m fuel h
  terminate := .terminate

/-- examples/simulate_fmi2_cs.c 7-63. If the instance cannot be created, the program ends with `fmi2Error`. -/
def simulate2 (m : Model F D) (P : Program F (FMI2.Op F)) (fuel n : Nat) (resource : Ptr UInt8) : Outcome (Status × List (Row F (FMI2.Out F))) :=
  match FMI2.instantiate m (some "instance1") .coSimulation (some m.token) resource (some true) false true with
  | (none, _) => .ret (.Error, [])
  | (some c, _) =>
    let api := api2 m fuel P.h
    CALLS api (P.start ++ [.setupExperiment (Arith.lit 0) true P.stopTime, .enterInitializationMode, .exitInitializationMode]) (.fresh c) [] fun w _ =>
    loop api P n 0 w []

/-- The step of the FMI 3.0 program, examples/simulate_fmi3_cs.c 43-48. The variables are static, examples/util.h 71-74; the model
passes their initial values. -/
def advance3 (m : Model F D) (fuel : Nat) (h : F) (w : FMI3.World F D) (time : F) : Outcome (FMI3.World F D × Status × Next F) :=
  FMI3.step m fuel w (.doStep time h ⟨some false, some false, some false, some (Arith.lit 0)⟩) >>- fun (w, s, o) =>
  match o with
  | .step r => .ret (w, s, if r.terminateSimulation = some true then .stop none else .goOn)
  | _ => .ret (w, s, .goOn)

/-- The functions of an FMI 3.0 instance. The calls in examples/simulate_fmi3_cs.c 24-48. -/
def api3 (m : Model F D) (fuel : Nat) (h : F) : Api F (FMI3.World F D) (FMI3.Op F) (FMI3.Out F) where
  call := FMI3.step m fuel
  advance := advance3 m fuel h
  terminate := .terminate

/-- examples/simulate_fmi3_cs.c 7-54. -/
def simulate3 (m : Model F D) (P : Program F (FMI3.Op F)) (fuel n : Nat) (resource : Ptr UInt8) : Outcome (Status × List (Row F (FMI3.Out F))) :=
  match FMI3.instantiateCoSimulation m (some "instance1") (some m.token) resource false false false true false true with
  | (none, _) => .ret (.Error, [])
  | (some c, _) =>
    let api := api3 m fuel P.h
    CALLS api (P.start ++ [.enterInitializationMode (Arith.lit 0) true P.stopTime, .exitInitializationMode]) (.fresh c) [] fun w _ =>
    loop api P n 0 w []

end Verif.Importer.CoSim
