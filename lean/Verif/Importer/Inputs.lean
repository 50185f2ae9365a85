import Verif.Importer.ModelExchange
import Verif.Importer.Programs

/-!
# Importer: Model Exchange with start values and inputs

`Verif.Importer.Euler` and `Verif.Importer.ModelExchange` follow examples/simulate_fmi2_me.c and examples/simulate_fmi3_me.c with `NO_INPUTS`
(examples/util.h 269-279). Here are the same programs with the functions `applyStartValues`, `applyContinuousInputs`, `applyDiscreteInputs` and
`nextInputEventTime` of examples/<FMU>.c. The simplifications are those of the two files.
-/

namespace Verif.Importer.Euler
open Verif CoSim

/-- The functions of examples/<FMU>.c that set start values and inputs; for example examples/Feedthrough.c 21-31, 33-53, 55-91, 93-192. -/
structure Inputs (F O : Type) where
  /-- the calls of `applyStartValues` -/
  start : List O := []
  /-- the calls of `applyContinuousInputs` for a time, before or after an event -/
  continuous : F → Bool → List O := fun _ _ => []
  /-- the calls of `applyDiscreteInputs` -/
  discrete : F → List O := fun _ => []
  /-- `nextInputEventTime` -/
  next : F → F

variable {F W O V : Type}

/-- A call of `applyContinuousInputs` or `applyDiscreteInputs` in the macro `CALL`, examples/util.h 45: the first call that fails ends it, and its
status is returned. For example examples/Feedthrough.c 55-91. -/
def Run.apply (call : W → O → Outcome (W × Status × V)) (s : Run F W V) (ops : List O) : Outcome (Run F W V × Status × Unit) :=
  s.call (calls call ops s.w >>- fun (w, st, _) => .ret (w, st, ()))

variable [Arith F] [HasInf F]

/-- `inputEvent`, examples/simulate_fmi2_me.c 99 and examples/simulate_fmi3_me.c 104. -/
def inputEvent (inp : Inputs F O) (s : Sim F W) : Bool := inp.next s.time <=. s.time

/-- `eventOccurred`, examples/simulate_fmi2_me.c 98-102 and examples/simulate_fmi3_me.c 103-107. -/
def eventOccurredWith (inp : Inputs F O) (s : Sim F W) : Bool :=
  inputEvent inp s || (s.info.nextEventTimeDefined && (s.info.nextEventTime <=. s.time)) || s.stateEvent || s.stepEvent

/-- The handling of events, examples/simulate_fmi2_me.c 104-150 and examples/simulate_fmi3_me.c 109-165. -/
def handleWith (api : Api F W) (apply : W → List O → Outcome (W × Status × Unit)) (inp : Inputs F O) (cfg : Config F) (fuel : Nat) (s : Sim F W)
    (k : Sim F W → Result F W) : Result F W :=
  let input := inputEvent inp s
  let iteration (s : Sim F W) : Result F W :=
    iterate api (fun s nom val =>
      CALL s (api.enterContinuousTimeMode s.w) fun s _ =>
      CALL s (api.record s.w) fun s _ =>
      let nominals (s : Sim F W) : Result F W :=
        if cfg.nx > 0 && nom then
          CALL s (api.getNominals s.w s.nominals cfg.nx) fun s n => k { s with nominals := n }
        else k s
      if cfg.nx > 0 && val then
        CALL s (api.getStates s.w s.x cfg.nx) fun s x => nominals { s with x := x }
      else nominals s) fuel s false false
  CALL s (api.enterEventMode s.w) fun s _ =>
  if input then
    CALL s (apply s.w (inp.continuous s.time true)) fun s _ =>
    CALL s (apply s.w (inp.discrete s.time)) fun s _ => iteration s
  else iteration s

/-- The integrator step, examples/simulate_fmi2_me.c 156-173 and examples/simulate_fmi3_me.c 171-188. `step` is a `uint64_t`. -/
def advanceWith (api : Api F W) (apply : W → List O → Outcome (W × Status × Unit)) (inp : Inputs F O) (cfg : Config F) (occurred : Bool) (s : Sim F W) :
    Result F W :=
  let move (s : Sim F W) : Result F W :=
    let step : Nat := (s.step + 1) % 2 ^ 64
    let s := { s with step := step, time := Arith.lit (step : Rat) *. cfg.h }
    CALL s (api.setTime s.w s.time) fun s _ =>
    CALL s (apply s.w (inp.continuous s.time false)) fun s _ =>
    if cfg.nx > 0 then
      let s := { s with x := eulerUpdate cfg.h cfg.nx s.x s.derX }
      CALL s (api.setStates s.w s.x cfg.nx) fun s _ => detect api cfg occurred s
    else detect api cfg occurred s
  if cfg.nx > 0 then
    CALL s (api.getDerivatives s.w s.derX cfg.nx) fun s d => move { s with derX := d }
  else move s

/-- One pass through the loop, examples/simulate_fmi2_me.c 96-212 and examples/simulate_fmi3_me.c 101-222. -/
def passWith (api : Api F W) (apply : W → List O → Outcome (W × Status × Unit)) (inp : Inputs F O) (cfg : Config F) (fuel : Nat) (s : Sim F W) : Result F W :=
  if s.info.terminateSimulation then .ret (false, s)
  else
    let occurred := eventOccurredWith inp s
    let rest (s : Sim F W) : Result F W := if cfg.stopTime <=. s.time then .ret (false, s) else advanceWith api apply inp cfg occurred s
    if occurred then handleWith api apply inp cfg fuel s rest else rest s

/-- `n` passes through the loop. The loop of examples/simulate_fmi2_me.c 96-212 and examples/simulate_fmi3_me.c 101-222. -/
def passesWith (api : Api F W) (apply : W → List O → Outcome (W × Status × Unit)) (inp : Inputs F O) (cfg : Config F) (fuel : Nat) : Nat → Sim F W → Result F W
  | 0, s => .ret (true, s)
  | n + 1, s => passesWith api apply inp cfg fuel n s >>- fun (b, s) => if b then passWith api apply inp cfg fuel s else .ret (false, s)

/-- The program from the event iteration after the initialisation to the `n`-th pass through the loop, examples/simulate_fmi2_me.c 62-212
and examples/simulate_fmi3_me.c 71-222. -/
def simulateWith (api : Api F W) (apply : W → List O → Outcome (W × Status × Unit)) (inp : Inputs F O) (cfg : Config F) (fuel n : Nat) (w : W) : Result F W :=
  initial api cfg fuel (Sim.start cfg w) >>- fun (b, s) => if b then passesWith api apply inp cfg fuel n s else .ret (false, s)

variable {D : Type}

/-- examples/simulate_fmi2_me.c 9-216; `n` bounds the number of passes through the loop. The program uses the recorded variables and the
constants of `P`. If the instance cannot be created, it ends with `fmi2Error`. -/
def simulate2With (m : Model F D) (M : Macros) (P : Program F (FMI2.Op F)) (inp : Inputs F (FMI2.Op F)) (fuel n : Nat) (resource : Ptr UInt8) :
    Outcome (Status × List (Row F (FMI2.Out F))) :=
  match FMI2.instantiate m (some "instance1") .modelExchange (some m.token) resource (some true) false true with
  | (none, _) => .ret (.Error, [])
  | (some c, _) =>
    let api := CoSim.api2 m 0 P.h
    CALLS api (inp.start ++ [.setupExperiment (Arith.lit 0) true P.stopTime, .enterInitializationMode] ++ inp.continuous (Arith.lit 0) false ++
      inp.discrete (Arith.lit 0) ++ [.exitInitializationMode]) (.fresh c) [] fun w _ =>
    simulateWith (watch (api2 m []) (calls (FMI2.step m 0) P.record)) (Run.apply (FMI2.step m 0)) inp ⟨M.nx, M.nz, P.h, P.stopTime, true⟩ fuel n
      ⟨w, .OK, Arith.lit 0, []⟩ >>- fun (b, s) =>
    if b then .hang else tearDown api s.w.w s.w.status s.w.rows

/-- examples/simulate_fmi3_me.c 9-228. -/
def simulate3With (m : Model F D) (M : Macros) (P : Program F (FMI3.Op F)) (inp : Inputs F (FMI3.Op F)) (fuel n : Nat) (resource : Ptr UInt8) :
    Outcome (Status × List (Row F (FMI3.Out F))) :=
  match FMI3.instantiateModelExchange m (some "instance1") (some m.token) resource false true true with
  | (none, _) => .ret (.Error, [])
  | (some c, _) =>
    let api := CoSim.api3 m 0 P.h
    CALLS api (inp.start ++ [.enterInitializationMode (Arith.lit 0) true P.stopTime] ++ inp.continuous (Arith.lit 0) false ++
      inp.discrete (Arith.lit 0) ++ [.exitInitializationMode]) (.fresh c) [] fun w _ =>
    simulateWith (watch (api3 m []) (calls (FMI3.step m 0) P.record)) (Run.apply (FMI3.step m 0)) inp ⟨M.nx, M.nz, P.h, P.stopTime, false⟩ fuel n
      ⟨w, .OK, Arith.lit 0, []⟩ >>- fun (b, s) =>
    if b then .hang else tearDown api s.w.w s.w.status s.w.rows

/-! ## Feedthrough -/

/-- `value` in `applyContinuousInputs`, examples/Feedthrough.c 59-69. The comparison `time == 0.5` of the code is
`¬(time < 0.5) ∧ time <= 0.5`. -/
def inputValue (time : F) (afterEvent : Bool) : F :=
  if time <. Arith.lit (1/2) then Arith.lit 0
  else if time <=. Arith.lit (1/2) then (if afterEvent then Arith.lit 2 else Arith.lit 0)
  else if time <. Arith.lit 1 then Arith.lit 2 -. Arith.lit 2 *. (time -. Arith.lit (1/2))
  else Arith.lit 1

/-- `nextInputEventTime`, examples/Feedthrough.c 21-31. -/
def nextInput (time : F) : F :=
  if time <=. Arith.lit (1/2) then Arith.lit (1/2)
  else if time <=. Arith.lit 1 then Arith.lit 1
  else if time <=. Arith.lit (3/2) then Arith.lit (3/2)
  else HasInf.inf

open CoSim.Feedthrough in
/-- examples/Feedthrough.c 21-31, 33-53, 55-91, 93-192 with FMI 2.0. The call in line 118 passes two value references and two values but announces one. -/
def feedthroughInputs2 : Inputs F (FMI2.Op F) where
  start := [.setReal (some [5]) 1 (some [Arith.lit 1])]
  continuous time afterEvent := [.setReal (some [7]) 1 (some [inputValue time afterEvent])]
  discrete time := [
    .setReal (some [6, 9]) 1 (some [tunable time, if before time then Arith.lit 0 else Arith.lit 1]),
    .setInteger (some [19]) 1 (some [range (-2147483648) 2147483647 time]),
    .setBoolean (some [27]) 1 (some [if before time then 0 else 1]),
    .setString (some [29]) 1 (some [text time])]
  next := nextInput

open CoSim.Feedthrough in
/-- examples/Feedthrough.c 21-31, 33-53, 55-91, 93-192 with FMI 3.0. `f32` is the conversion of `value` to a 32-bit float (line 80), given by
its bits; those of `1.0f` are `0x3f800000`. -/
def feedthroughInputs3 (f32 : F → UInt32) : Inputs F (FMI3.Op F) where
  start := [.set .float64 (some [5]) 1 (some [Arith.lit 1]) 1]
  continuous time afterEvent := [
    .set .float32 (some [1]) 1 (some [f32 (inputValue time afterEvent)]) 1,
    .set .float64 (some [7]) 1 (some [inputValue time afterEvent]) 1]
  discrete time := [
    .set .float32 (some [3]) 1 (some [if before time then (0 : UInt32) else (0x3f800000 : UInt32)]) 1,
    .set .float64 (some [6, 9]) 2 (some [tunable time, if before time then Arith.lit 0 else Arith.lit 1]) 2,
    .set .int8 (some [11]) 1 (some [range (-128) 127 time]) 1,
    .set .uint8 (some [13]) 1 (some [range 0 255 time]) 1,
    .set .int16 (some [15]) 1 (some [range (-32768) 32767 time]) 1,
    .set .uint16 (some [17]) 1 (some [range 0 65535 time]) 1,
    .set .int32 (some [19]) 1 (some [range (-2147483648) 2147483647 time]) 1,
    .set .uint32 (some [21]) 1 (some [range 0 4294967295 time]) 1,
    .set .int64 (some [23]) 1 (some [range (-9223372036854775808) 9223372036854775807 time]) 1,
    .set .uint64 (some [25]) 1 (some [range 0 18446744073709551615 time]) 1,
    .set .boolean (some [27]) 1 (some [!before time]) 1,
    .set .string (some [29]) 1 (some [text time]) 1,
    .set .binary (some [31]) 1 (some [bytes time]) 1,
    .set .int64 (some [33]) 1 (some [range 1 2 time]) 1]
  next := nextInput

end Verif.Importer.Euler
