import Verif.Importer.CoSim

/-!
# Importer: the other Co-Simulation programs, examples/cs_early_return.c, examples/cs_event_mode.c and examples/cs_intermediate_update.c

As in `Importer/CoSim.lean`, `setUp`, the format of the output file and releasing the instance are not modelled, the wrapper functions `FMI3*` are
replaced by the functions of the FMU, and a row is written only if all values could be read. `P.h` is `stepSize` (10 times `FIXED_SOLVER_STEP` in
the programs), `P.stopTime` is `stopTime`.
-/

namespace Verif.Importer.CoSim
open Verif

variable {F D : Type} [Arith F] [HasInf F]

/-- The arguments of `FMI3DoStep`. The output variables are static (examples/util.h 71-74) but `time`; `fmi3DoStep` sets all of them if it returns
`fmi3OK`, so the model passes constants. -/
def doStep3 (time h : F) : FMI3.Op F := .doStep time h ⟨some false, some false, some false, some time⟩

/-- `eventEncountered`, `terminateSimulation` and `time` after `FMI3DoStep` returned `fmi3OK`.
examples/cs_early_return.c 37-60, examples/cs_event_mode.c 65-114. -/
def stepResult (time : F) : List (FMI3.Out F) → Bool × Bool × F
  | [.step r] => (r.eventHandlingNeeded.getD false, r.terminateSimulation.getD false, r.lastSuccessfulTime.getD time)
  | _ => (false, false, time)

/-- The loop, examples/cs_early_return.c 37-60; `n` bounds the number of passes. -/
def earlyReturnLoop (m : Model F D) (P : Program F (FMI3.Op F)) (fuel : Nat) :
    Nat → (time : F) → (terminate : Bool) → FMI3.World F D → List (Row F (FMI3.Out F)) → Outcome (Status × List (Row F (FMI3.Out F)))
  | 0, _, _, _, _ => .hang
  | n + 1, time, terminate, w, rows =>
    let api := api3 m fuel P.h
    CALLS api (P.inputs time) w rows fun w _ =>
    CALLS api P.record w rows fun w vs =>
    let rows := rows ++ [⟨time, vs⟩]
    if terminate || (P.stopTime <. time +. P.h) then tearDown api w .OK rows
    else CALLS api [doStep3 time P.h] w rows fun w r =>
      earlyReturnLoop m P fuel n (stepResult time r).2.2 (stepResult time r).2.1 w rows

/-- examples/cs_early_return.c 7-65: Event Mode is not used, early return is allowed, the resource path is NULL. -/
def earlyReturn (m : Model F D) (P : Program F (FMI3.Op F)) (fuel n : Nat) : Outcome (Status × List (Row F (FMI3.Out F))) :=
  match FMI3.instantiateCoSimulation m (some "instance1") (some m.token) none false false true true false true with
  | (none, _) => .ret (.Error, [])
  | (some c, _) =>
    CALLS (api3 m fuel P.h) (P.start ++ [.enterInitializationMode (Arith.lit 0) true P.stopTime, .exitInitializationMode]) (.fresh c) [] fun w _ =>
    earlyReturnLoop m P fuel n (Arith.lit 0) false w []

/-- The event iteration, examples/cs_event_mode.c 45-58, 96-109; `k` gets `terminateSimulation`. The program overwrites the variables in every call; the
model passes constants. -/
def updateStates (m : Model F D) (P : Program F (FMI3.Op F)) (fuel : Nat) (rows : List (Row F (FMI3.Out F)))
    (k : FMI3.World F D → Bool → Outcome (Status × List (Row F (FMI3.Out F)))) : Nat → FMI3.World F D → Outcome (Status × List (Row F (FMI3.Out F)))
  | 0, _ => .hang
  | n + 1, w =>
    CALLS (api3 m fuel P.h) [.updateDiscreteStates ⟨some false, some false, some false, some false, some false, some (Arith.lit 0)⟩] w rows fun w vs =>
    match vs with
    | [.event i] =>
      if i.terminateSimulation.getD false then k w true
      else if i.discreteStatesNeedUpdate.getD false then updateStates m P fuel rows k n w
      else k w false
    | _ => k w false

/-- The loop, examples/cs_event_mode.c 65-114; `n` bounds the number of passes, `iter` those of the event iteration. -/
def eventModeLoop (m : Model F D) (P : Program F (FMI3.Op F)) (fuel iter : Nat) :
    Nat → (time : F) → (terminate : Bool) → FMI3.World F D → List (Row F (FMI3.Out F)) → Outcome (Status × List (Row F (FMI3.Out F)))
  | 0, _, _, _, _ => .hang
  | n + 1, time, terminate, w, rows =>
    let api := api3 m fuel P.h
    CALLS api P.record w rows fun w vs =>
    let rows := rows ++ [⟨time, vs⟩]
    if terminate || (P.stopTime <. time +. P.h) then tearDown api w .OK rows
    else CALLS api [doStep3 time P.h] w rows fun w r =>
      let time' := (stepResult time r).2.2
      if (stepResult time r).1 then
        CALLS api P.record w rows fun w vs =>
        let rows := rows ++ [⟨time', vs⟩]
        CALLS api [.enterEventMode] w rows fun w _ =>
        CALLS api (P.inputs time') w rows fun w _ =>
        updateStates m P fuel rows (fun w terminate =>
          CALLS api [.enterStepMode] w rows fun w _ => eventModeLoop m P fuel iter n time' terminate w rows) iter w
      else eventModeLoop m P fuel iter n time' (stepResult time r).2.1 w rows

/-- examples/cs_event_mode.c 7-119: Event Mode is used, early return is allowed, the resource path is NULL. -/
def eventMode (m : Model F D) (P : Program F (FMI3.Op F)) (fuel iter n : Nat) : Outcome (Status × List (Row F (FMI3.Out F))) :=
  match FMI3.instantiateCoSimulation m (some "instance1") (some m.token) none false true true true false true with
  | (none, _) => .ret (.Error, [])
  | (some c, _) =>
    let api := api3 m fuel P.h
    CALLS api (P.start ++ .enterInitializationMode (Arith.lit 0) true P.stopTime :: (P.inputs (Arith.lit 0) ++ [.exitInitializationMode])) (.fresh c) [] fun w _ =>
    updateStates m P fuel [] (fun w terminate =>
      if terminate then tearDown api w .OK []
      else CALLS api [.enterStepMode] w [] fun w _ => eventModeLoop m P fuel iter n (Arith.lit 0) false w []) iter w

/-- The loop, examples/cs_intermediate_update.c 106-121. -/
def intermediateUpdateLoop (m : Model F D) (P : Program F (FMI3.Op F)) (fuel : Nat) :
    Nat → (time : F) → FMI3.World F D → Outcome (Status × List (Row F (FMI3.Out F)))
  | 0, _, _ => .hang
  | n + 1, time, w =>
    let api := api3 m fuel P.h
    if time <. P.stopTime then
      CALLS api [doStep3 time P.h] w [] fun w r => intermediateUpdateLoop m P fuel n ((stepResult time r).2.2 +. P.h) w
    else tearDown api w .OK []

/-- examples/cs_intermediate_update.c 78-125: the callback intermediateUpdate is passed. Simplification: the callback, which records variables
during `fmi3DoStep` (lines 10-75), is not executed; reading variables has no influence on the simulation (C11). So there are no rows. -/
def intermediateUpdate (m : Model F D) (P : Program F (FMI3.Op F)) (fuel n : Nat) : Outcome (Status × List (Row F (FMI3.Out F))) :=
  match FMI3.instantiateCoSimulation m (some "instance1") (some m.token) none false false false true true true with
  | (none, _) => .ret (.Error, [])
  | (some c, _) =>
    CALLS (api3 m fuel P.h) (P.start ++ [.enterInitializationMode (Arith.lit 0) true P.stopTime, .exitInitializationMode]) (.fresh c) [] fun w _ =>
    intermediateUpdateLoop m P fuel n (Arith.lit 0) w

end Verif.Importer.CoSim
