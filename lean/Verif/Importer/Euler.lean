import Verif.History2
import Verif.History3

/-!
# Importer: Model Exchange with the forward Euler method, examples/simulate_fmi2_me.c and examples/simulate_fmi3_me.c

The two programs are the same up to the names of the API functions, so there is one model with the API functions as a
parameter. Not modelled: instantiation and initialisation (the program is followed from the event iteration after the
initialisation on), the output file, and `tearDown`. Simplification: the model calls the functions of the FMU instead of the
wrapper functions `FMI2*`, `FMI3*`, which only pass on the arguments and the status. The programs are modelled
with `NO_INPUTS` (examples/util.h 269-279), as for the FMUs with continuous states.
-/

namespace Verif.Importer.Euler
open Verif

/-- The functions of an instance for Model Exchange that the importers use. `W` is the world of the instance.
The calls in examples/simulate_fmi2_me.c 62-211 and examples/simulate_fmi3_me.c 71-221. -/
structure Api (F W : Type) where
  getDerivatives : W → List F → Nat → Outcome (W × Status × List F)
  getStates : W → List F → Nat → Outcome (W × Status × List F)
  getNominals : W → List F → Nat → Outcome (W × Status × List F)
  getIndicators : W → List F → Nat → Outcome (W × Status × List F)
  setStates : W → List F → Nat → Outcome (W × Status × Unit)
  setTime : W → F → Outcome (W × Status × Unit)
  enterEventMode : W → Outcome (W × Status × Unit)
  enterContinuousTimeMode : W → Outcome (W × Status × Unit)
  update : W → EventInfo F → Outcome (W × Status × EventInfo F)
  completed : W → Bool → Bool → Outcome (W × Status × (Bool × Bool))
  /-- `recordVariables`, for example examples/BouncingBall.c 17-36 -/
  record : W → Outcome (W × Status × Unit)

/-- Constants of the programs: `NX`, `NZ`, `fixedStep`, `stopTime`, and whether it is the program for FMI 2.0.
examples/simulate_fmi2_me.c 13-38, examples/simulate_fmi3_me.c 13-46 and examples/util.h 58-69. No file defines `NX` and `NZ`, see `Macros.built` in
Importer/ModelExchange.lean: the programs as built have `nx = 0` and `nz = 0`. -/
structure Config (F : Type) where
  nx : Nat
  nz : Nat
  h : F
  stopTime : F
  fmi2 : Bool

/-- The variables of the programs, examples/simulate_fmi2_me.c 13-38, 56, 94 and examples/simulate_fmi3_me.c 13-46, 58, 99. `info`
holds `eventInfo` (FMI 2.0) or the variables that `FMI3UpdateDiscreteStates` writes (FMI 3.0). -/
structure Sim (F W : Type) where
  w : W
  time : F
  step : Nat
  x : List F
  nominals : List F
  derX : List F
  z : List F
  previousZ : List F
  info : EventInfo F
  stateEvent : Bool
  stepEvent : Bool

variable {F W β : Type}

/-- `true`: the program goes on; `false`: it has jumped to `TERMINATE` or left the loop. The macro `CALL`, examples/util.h 45. -/
abbrev Result (F W : Type) := Outcome (Bool × Sim F W)

/-- The macro `CALL`, examples/util.h 45. -/
def CALL (s : Sim F W) (r : Outcome (W × Status × β)) (k : Sim F W → β → Result F W) : Result F W :=
  r >>- fun (w, st, b) => if st = .OK then k { s with w := w } b else .ret (false, { s with w := w })

variable [Arith F] [HasInf F]

/-- The event iteration, examples/simulate_fmi2_me.c 64-73, 112-131 and examples/simulate_fmi3_me.c 72-87, 120-145; `nom` and `val` are
`nominalsOfContinuousStatesChanged` and `valuesOfContinuousStatesChanged`. -/
def iterate (api : Api F W) (k : Sim F W → (nom val : Bool) → Result F W) :
    (fuel : Nat) → Sim F W → (nom val : Bool) → Result F W
  | 0, _, _, _ => .hang
  | fuel + 1, s, nom, val =>
    CALL s (api.update s.w s.info) fun s info =>
    let s := { s with info := info }
    let nom := nom || info.nominalsChanged
    let val := val || info.valuesChanged
    if info.terminateSimulation then .ret (false, s)
    else if info.newDiscreteStatesNeeded then iterate api k fuel s nom val
    else k s nom val

/-- From the initial event iteration to the beginning of the loop, examples/simulate_fmi2_me.c 62-94 and
examples/simulate_fmi3_me.c 71-99. -/
def initial (api : Api F W) (cfg : Config F) (fuel : Nat) (s : Sim F W) : Result F W :=
  iterate api (fun s _ _ =>
    CALL s (api.enterContinuousTimeMode s.w) fun s _ =>
    let cont (s : Sim F W) : Result F W := CALL s (api.record s.w) fun s _ => .ret (true, { s with step := 0 })
    let states (s : Sim F W) : Result F W :=
      if cfg.nx > 0 then
        CALL s (api.getStates s.w s.x cfg.nx) fun s x => let s := { s with x := x }
        CALL s (api.getNominals s.w s.nominals cfg.nx) fun s n => cont { s with nominals := n }
      else cont s
    if cfg.nz > 0 then
      CALL s (api.getIndicators s.w s.previousZ cfg.nz) fun s z => states { s with previousZ := z }
    else states s) fuel s false false

/-- `eventOccurred`, examples/simulate_fmi2_me.c 98-102 and examples/simulate_fmi3_me.c 103-107; `nextInputEventTime` is
`INFINITY`. -/
def eventOccurred (s : Sim F W) : Bool :=
  (HasInf.inf <=. s.time) || (s.info.nextEventTimeDefined && (s.info.nextEventTime <=. s.time)) || s.stateEvent || s.stepEvent

/-- The handling of events, examples/simulate_fmi2_me.c 104-150 and examples/simulate_fmi3_me.c 109-165. -/
def handle (api : Api F W) (cfg : Config F) (fuel : Nat) (s : Sim F W) (k : Sim F W → Result F W) : Result F W :=
  CALL s (api.enterEventMode s.w) fun s _ =>
  iterate api (fun s nom val =>
    CALL s (api.enterContinuousTimeMode s.w) fun s _ =>
    CALL s (api.record s.w) fun s _ =>
    let nominals (s : Sim F W) : Result F W :=
      if cfg.nx > 0 && nom then
        CALL s (api.getNominals s.w s.nominals cfg.nx) fun s n => k { s with nominals := n }
      else k s
    if cfg.nx > 0 && val then
      CALL s (api.getStates s.w s.x cfg.nx) fun s x => nominals { s with x := x }
    else nominals s) fuel s false false

/-- The end of a pass through the loop, examples/simulate_fmi2_me.c 204-211 and examples/simulate_fmi3_me.c 217-221. -/
def finish (api : Api F W) (cfg : Config F) (s : Sim F W) : Result F W :=
  CALL s (api.completed s.w s.stepEvent s.info.terminateSimulation) fun s b =>
  let s := { s with stepEvent := b.1, info := { s.info with terminateSimulation := b.2 } }
  if cfg.fmi2 && s.info.terminateSimulation then .ret (false, s)
  else CALL s (api.record s.w) fun s _ => .ret (true, s)

/-- The search for state events, examples/simulate_fmi2_me.c 175-202 and examples/simulate_fmi3_me.c 190-215. -/
def detect (api : Api F W) (cfg : Config F) (occurred : Bool) (s : Sim F W) : Result F W :=
  if cfg.nz > 0 then
    let s := { s with stateEvent := false }
    if occurred then
      CALL s (api.getIndicators s.w s.previousZ cfg.nz) fun s z => finish api cfg { s with previousZ := z }
    else
      CALL s (api.getIndicators s.w s.z cfg.nz) fun s z =>
      finish api cfg { s with z := z, stateEvent := zeroCrossing cfg.nz s.previousZ z, previousZ := z }
  else finish api cfg s

/-- The integrator step, examples/simulate_fmi2_me.c 156-173 and examples/simulate_fmi3_me.c 171-188. `step` is a `uint64_t`. -/
def advance (api : Api F W) (cfg : Config F) (occurred : Bool) (s : Sim F W) : Result F W :=
  let move (s : Sim F W) : Result F W :=
    let step : Nat := (s.step + 1) % 2 ^ 64
    let s := { s with step := step, time := Arith.lit (step : Rat) *. cfg.h }
    CALL s (api.setTime s.w s.time) fun s _ =>
    if cfg.nx > 0 then
      let s := { s with x := eulerUpdate cfg.h cfg.nx s.x s.derX }
      CALL s (api.setStates s.w s.x cfg.nx) fun s _ => detect api cfg occurred s
    else detect api cfg occurred s
  if cfg.nx > 0 then
    CALL s (api.getDerivatives s.w s.derX cfg.nx) fun s d => move { s with derX := d }
  else move s

/-- One pass through the loop, examples/simulate_fmi2_me.c 96-212 and examples/simulate_fmi3_me.c 101-222. -/
def pass (api : Api F W) (cfg : Config F) (fuel : Nat) (s : Sim F W) : Result F W :=
  if s.info.terminateSimulation then .ret (false, s)
  else
    let occurred := eventOccurred s
    let rest (s : Sim F W) : Result F W := if cfg.stopTime <=. s.time then .ret (false, s) else advance api cfg occurred s
    if occurred then handle api cfg fuel s rest else rest s

/-- `n` passes through the loop. The loop of examples/simulate_fmi2_me.c 96-212 and examples/simulate_fmi3_me.c 101-222. -/
def passes (api : Api F W) (cfg : Config F) (fuel : Nat) : Nat → Sim F W → Result F W
  | 0, s => .ret (true, s)
  | n + 1, s => passes api cfg fuel n s >>- fun (b, s) => if b then pass api cfg fuel s else .ret (false, s)

/-- The variables after the initialisation of the instance in the world `w`. examples/simulate_fmi2_me.c 13-38, examples/simulate_fmi3_me.c 13-46. -/
def Sim.start (cfg : Config F) (w : W) : Sim F W where
  w := w
  time := Arith.lit 0
  step := 0
  x := List.replicate cfg.nx (Arith.lit 0)
  nominals := List.replicate cfg.nx (Arith.lit 0)
  derX := List.replicate cfg.nx (Arith.lit 0)
  z := List.replicate cfg.nz (Arith.lit 0)
  previousZ := List.replicate cfg.nz (Arith.lit 0)
  info := ⟨false, false, false, false, false, Arith.lit 0⟩
  stateEvent := false
  stepEvent := false

/-- The program from the event iteration after the initialisation to the `n`-th pass through the loop, examples/simulate_fmi2_me.c 62-212
and examples/simulate_fmi3_me.c 71-222. -/
def simulate (api : Api F W) (cfg : Config F) (fuel n : Nat) (w : W) : Result F W :=
  initial api cfg fuel (Sim.start cfg w) >>- fun (b, s) => if b then passes api cfg fuel n s else .ret (false, s)

section api
variable {D : Type}

/-- The functions of an FMI 2.0 instance; `vrs` are the variables that `recordVariables` reads. The calls in examples/simulate_fmi2_me.c 62-211. -/
def api2 (m : Model F D) (vrs : List Nat) : Api F (FMI2.World F D) :=
  let reals (r : Outcome (FMI2.World F D × Status × FMI2.Out F)) (l : List F) : Outcome (FMI2.World F D × Status × List F) :=
    r >>- fun (w, s, o) => .ret (w, s, match o with | .reals (some v) => v | _ => l)
  let unit (r : Outcome (FMI2.World F D × Status × FMI2.Out F)) : Outcome (FMI2.World F D × Status × Unit) :=
    r >>- fun (w, s, _) => .ret (w, s, ())
  { getDerivatives := fun w l n => reals (FMI2.step m 0 w (.getDerivatives (some l) n)) l
    getStates := fun w l n => reals (FMI2.step m 0 w (.getContinuousStates (some l) n)) l
    getNominals := fun w l n => reals (FMI2.step m 0 w (.getNominals (some l) n)) l
    getIndicators := fun w l n => reals (FMI2.step m 0 w (.getEventIndicators (some l) n)) l
    setStates := fun w l n => unit (FMI2.step m 0 w (.setContinuousStates (some l) n))
    setTime := fun w t => unit (FMI2.step m 0 w (.setTime t))
    enterEventMode := fun w => unit (FMI2.step m 0 w .enterEventMode)
    enterContinuousTimeMode := fun w => unit (FMI2.step m 0 w .enterContinuousTimeMode)
    update := fun w i => FMI2.step m 0 w (.newDiscreteStates (some i)) >>- fun (w, s, o) =>
      .ret (w, s, match o with | .info (some i) => i | _ => i)
    completed := fun w a b => FMI2.step m 0 w (.completedIntegratorStep (some a) (some b)) >>- fun (w, s, o) =>
      .ret (w, s, match o with | .flags (some a) (some b) => (a, b) | _ => (a, b))
    record := fun w => unit (FMI2.step m 0 w
      (.getReal (some vrs) vrs.length (some (List.replicate vrs.length (Arith.lit 0))))) }

/-- The functions of an FMI 3.0 instance; `vrs` are the variables that `recordVariables` reads. The calls in examples/simulate_fmi3_me.c 71-221. -/
def api3 (m : Model F D) (vrs : List Nat) : Api F (FMI3.World F D) :=
  let reals (r : Outcome (FMI3.World F D × Status × FMI3.Out F)) (l : List F) : Outcome (FMI3.World F D × Status × List F) :=
    r >>- fun (w, s, o) => .ret (w, s, match o with | .reals (some v) => v | _ => l)
  let unit (r : Outcome (FMI3.World F D × Status × FMI3.Out F)) : Outcome (FMI3.World F D × Status × Unit) :=
    r >>- fun (w, s, _) => .ret (w, s, ())
  { getDerivatives := fun w l n => reals (FMI3.step m 0 w (.getDerivatives (some l) n)) l
    getStates := fun w l n => reals (FMI3.step m 0 w (.getContinuousStates (some l) n)) l
    getNominals := fun w l n => reals (FMI3.step m 0 w (.getNominals (some l) n)) l
    getIndicators := fun w l n => reals (FMI3.step m 0 w (.getEventIndicators (some l) n)) l
    setStates := fun w l n => unit (FMI3.step m 0 w (.setContinuousStates (some l) n))
    setTime := fun w t => unit (FMI3.step m 0 w (.setTime t))
    enterEventMode := fun w => unit (FMI3.step m 0 w .enterEventMode)
    enterContinuousTimeMode := fun w => unit (FMI3.step m 0 w .enterContinuousTimeMode)
    update := fun w i => FMI3.step m 0 w (.updateDiscreteStates ⟨some i.newDiscreteStatesNeeded, some i.terminateSimulation,
        some i.nominalsChanged, some i.valuesChanged, some i.nextEventTimeDefined,
        some i.nextEventTime⟩) >>- fun (w, s, o) =>
      .ret (w, s, match o with
        | .event ⟨some a, some b, some c, some d, some e, some f⟩ => ⟨a, b, c, d, e, f⟩
        | _ => i)
    completed := fun w a b => FMI3.step m 0 w (.completedIntegratorStep (some a) (some b)) >>- fun (w, s, o) =>
      .ret (w, s, match o with | .flags (some a) (some b) => (a, b) | _ => (a, b))
    record := fun w => unit (FMI3.step m 0 w
      (.get .float64 (some vrs) vrs.length (some (List.replicate vrs.length (Arith.lit 0))) vrs.length)) }

end api

end Verif.Importer.Euler
