import Verif.Importer.Euler
import Verif.Importer.CoSim

/-!
# Importer: Model Exchange, from the instantiation to the end of the program

`Verif.Importer.Euler` follows examples/simulate_fmi2_me.c and examples/simulate_fmi3_me.c from the first event iteration on. Here are the
parts before and after it, the variable `status` and the output file. Not modelled: `setUp` (opening the files and loading the shared
library, examples/util.h 194-222), the format of the output file, releasing the instance and closing the files. As in
`Verif.Importer.Euler` the programs are modelled with `NO_INPUTS` (examples/util.h 269-279).
-/

namespace Verif.Importer.Euler
open Verif CoSim

/-- The instance and the variables of the program that the calls change: `status` (examples/util.h 77), the time that the
variables are recorded for, and the rows of the output file. -/
structure Run (F W V : Type) where
  w : W
  status : Status
  time : F
  rows : List (Row F V)

variable {F W V β : Type}

/-- `status = f` in the macro `CALL`, examples/util.h 45. -/
def Run.call (s : Run F W V) (r : Outcome (W × Status × β)) : Outcome (Run F W V × Status × β) :=
  r >>- fun (w, st, b) => .ret ({ s with w := w, status := st }, st, b)

/-- The API functions together with the variables of the program; `record` are the calls of `recordVariables` in examples/<FMU>.c. The
program always calls `FMI2SetTime` (`FMI3SetTime`) with the time it records next. Simplification: a row is written only if all values could
be read (examples/BouncingBall.c 33 writes it in any case). -/
def watch (api : Api F W) (record : W → Outcome (W × Status × List V)) : Api F (Run F W V) where
  getDerivatives s l n := s.call (api.getDerivatives s.w l n)
  getStates s l n := s.call (api.getStates s.w l n)
  getNominals s l n := s.call (api.getNominals s.w l n)
  getIndicators s l n := s.call (api.getIndicators s.w l n)
  setStates s l n := s.call (api.setStates s.w l n)
  setTime s t := Run.call { s with time := t } (api.setTime s.w t)
  enterEventMode s := s.call (api.enterEventMode s.w)
  enterContinuousTimeMode s := s.call (api.enterContinuousTimeMode s.w)
  update s i := s.call (api.update s.w i)
  completed s a b := s.call (api.completed s.w a b)
  record s := record s.w >>- fun (w, st, vs) =>
    .ret ({ s with w := w, status := st, rows := if st = .OK then s.rows ++ [⟨s.time, vs⟩] else s.rows }, st, ())

/-- The macros `NX` and `NZ` of examples/simulate_fmi2_me.c 16-28 and examples/simulate_fmi3_me.c 16-28. -/
structure Macros where
  nx : Nat
  nz : Nat

/-- No file of the repository defines `NX` and `NZ`: <FMU>/config.h defines `MAX_CONTINUOUS_STATES` and `MAX_EVENT_INDICATORS` (for example
BouncingBall/config.h 11-12), and examples/Examples.cmake 197-220 passes neither to the compiler. An identifier that is not defined is 0 in `#if NX > 0`
and `#if NZ > 0` (examples/simulate_fmi2_me.c 16, 24, examples/simulate_fmi3_me.c 16, 24), so the programs are built without the code for continuous states
and event indicators. -/
def Macros.built : Macros := ⟨0, 0⟩

variable {D : Type} [Arith F] [HasInf F]

/-- The numbers that the programs are written for: the numbers of continuous states and event indicators of the FMU, for example
BouncingBall/config.h 11-12. -/
def Macros.meant (m : Model F D) : Macros := ⟨m.maxNX, m.maxNZ⟩

/-- examples/simulate_fmi2_me.c 9-216; `n` bounds the number of passes through the loop. The program uses the recorded variables and the
constants of `P`. If the instance cannot be created, it ends with `fmi2Error`. -/
def simulate2 (m : Model F D) (M : Macros) (P : Program F (FMI2.Op F)) (fuel n : Nat) (resource : Ptr UInt8) : Outcome (Status × List (Row F (FMI2.Out F))) :=
  match FMI2.instantiate m (some "instance1") .modelExchange (some m.token) resource (some true) false true with
  | (none, _) => .ret (.Error, [])
  | (some c, _) =>
    let api := CoSim.api2 m 0 P.h
    CALLS api [.setupExperiment (Arith.lit 0) true P.stopTime, .enterInitializationMode, .exitInitializationMode] (.fresh c) [] fun w _ =>
    simulate (watch (api2 m []) (calls (FMI2.step m 0) P.record)) ⟨M.nx, M.nz, P.h, P.stopTime, true⟩ fuel n
      ⟨w, .OK, Arith.lit 0, []⟩ >>- fun (b, s) =>
    if b then .hang else tearDown api s.w.w s.w.status s.w.rows

/-- examples/simulate_fmi3_me.c 9-228. -/
def simulate3 (m : Model F D) (M : Macros) (P : Program F (FMI3.Op F)) (fuel n : Nat) (resource : Ptr UInt8) : Outcome (Status × List (Row F (FMI3.Out F))) :=
  match FMI3.instantiateModelExchange m (some "instance1") (some m.token) resource false true true with
  | (none, _) => .ret (.Error, [])
  | (some c, _) =>
    let api := CoSim.api3 m 0 P.h
    CALLS api [.enterInitializationMode (Arith.lit 0) true P.stopTime, .exitInitializationMode] (.fresh c) [] fun w _ =>
    simulate (watch (api3 m []) (calls (FMI3.step m 0) P.record)) ⟨M.nx, M.nz, P.h, P.stopTime, false⟩ fuel n
      ⟨w, .OK, Arith.lit 0, []⟩ >>- fun (b, s) =>
    if b then .hang else tearDown api s.w.w s.w.status s.w.rows

end Verif.Importer.Euler
