import Verif.Importer.Euler

/-!
# What an importer for Model Exchange may call, and when

An FMU is an arbitrary function from the dialogue so far to the answer to the next call. `Seen` is what the importer can know from
the dialogue, `Correct` which calls are right at that point. Nothing here refers to how the importers work.
-/

namespace Verif.Importer.Euler
open Verif

/-- A call of the importer, with the values it passes to the FMU. -/
inductive Call (F : Type)
  | getDerivatives | getStates | getNominals | getIndicators
  | setStates (x : List F)
  | setTime (t : F)
  | enterEventMode | enterContinuousTimeMode
  /-- `fmi2NewDiscreteStates`, `fmi3UpdateDiscreteStates` -/
  | update
  /-- `fmi2CompletedIntegratorStep`, `fmi3CompletedIntegratorStep` -/
  | completed
  /-- The calls with which the importer gets the values it writes to the output file. -/
  | record

/-- What the FMU answers. `values` belongs to the functions that return vectors, `info` to `update`, the rest to `completed`. -/
structure Answer (F : Type) where
  status : Status
  values : Nat → F
  info : EventInfo F
  stepEvent : Bool
  terminate : Bool

abbrev Dialogue (F : Type) := List (Call F × Answer F)

/-- An arbitrary FMU. -/
abbrev FMU (F : Type) := Dialogue F → Call F → Answer F

variable {F : Type}

/-- The functions of `fmu`. The world is the dialogue. -/
def FMU.api (fmu : FMU F) : Api F (Dialogue F) :=
  let say (d : Dialogue F) (c : Call F) : Dialogue F := d ++ [(c, fmu d c)]
  let vector (c : Call F) (d : Dialogue F) (n : Nat) : Outcome (Dialogue F × Status × List F) :=
    .ret (say d c, (fmu d c).status, (List.range n).map (fmu d c).values)
  let unit (c : Call F) (d : Dialogue F) : Outcome (Dialogue F × Status × Unit) := .ret (say d c, (fmu d c).status, ())
  { getDerivatives := fun d _ n => vector .getDerivatives d n
    getStates := fun d _ n => vector .getStates d n
    getNominals := fun d _ n => vector .getNominals d n
    getIndicators := fun d _ n => vector .getIndicators d n
    setStates := fun d x _ => unit (.setStates x) d
    setTime := fun d t => unit (.setTime t) d
    enterEventMode := unit .enterEventMode
    enterContinuousTimeMode := unit .enterContinuousTimeMode
    update := fun d _ => .ret (say d .update, (fmu d .update).status, (fmu d .update).info)
    completed := fun d _ _ =>
      .ret (say d .completed, (fmu d .completed).status, ((fmu d .completed).stepEvent, (fmu d .completed).terminate))
    record := unit .record }

/-- The modes of Model Exchange after the initialization. `event true`: the FMU has said that no further update is needed. -/
inductive Phase
  | event (settled : Bool)
  | continuous
  deriving DecidableEq

/-- What the importer can know. -/
structure Seen (F : Type) where
  phase : Phase := .event false
  /-- A call has failed. -/
  failed : Bool := false
  /-- The FMU has asked to terminate the simulation. -/
  terminate : Bool := false
  time : F
  /-- Number of times the importer has set the time. -/
  steps : Nat := 0
  /-- The continuous states of the FMU, if they are known. -/
  states : Option (Nat → F) := none
  /-- The derivatives at the beginning of the step. -/
  derivatives : Option (Nat → F) := none
  /-- The event indicators that were read last. -/
  indicators : Option (Nat → F) := none
  /-- The nominal values are known. -/
  nominals : Bool := false
  /-- The time of the next time event. -/
  nextEvent : Option F := none
  /-- An event has occurred and has not been handled. -/
  due : Bool := false
  /-- Since the event indicators were read last, an event has been handled. -/
  afterEvent : Bool := false
  /-- The time has been set, the states that belong to it have not. -/
  moved : Bool := false
  /-- The event indicators at the present time and states have been read. -/
  checked : Bool := false
  /-- The step has been made and has not been reported as completed. -/
  stepping : Bool := false
  /-- The values of the variables at this point have been recorded. -/
  recorded : Bool := false

variable [Arith F]

/-- An event indicator changes from at most zero to above zero or back. -/
def Crosses (nz : Nat) (z z' : Nat → F) : Prop :=
  ∃ i < nz, ((z i <=. Arith.lit 0) = true ∧ (Arith.lit 0 <. z' i) = true) ∨
    ((Arith.lit 0 <. z i) = true ∧ (z' i <=. Arith.lit 0) = true)

open Classical in
/-- What is known after one more successful call. With `strict` a zero crossing counts always, otherwise it does not count in the
first step after an event. -/
noncomputable def Seen.told (strict : Bool) (cfg : Config F) (s : Seen F) (c : Call F) (a : Answer F) : Seen F :=
  match c with
  | .getDerivatives => { s with derivatives := some a.values }
  | .getStates => { s with states := some a.values }
  | .getNominals => { s with nominals := true }
  | .getIndicators =>
    { s with
      indicators := some a.values
      checked := true
      afterEvent := false
      due := s.due || decide (∃ z, s.indicators = some z ∧ (strict = true ∨ s.afterEvent = false) ∧ Crosses cfg.nz z a.values) }
  | .setStates x => { s with states := some fun i => x.getD i (Arith.lit 0), moved := false, derivatives := none, checked := false }
  | .setTime t =>
    { s with
      time := t
      steps := s.steps + 1
      moved := decide (0 < cfg.nx)
      checked := false
      stepping := true
      recorded := false
      due := s.due || decide (∃ e, s.nextEvent = some e ∧ (e <=. t) = true) }
  | .enterEventMode => { s with phase := .event false, due := false, afterEvent := true, derivatives := none }
  | .enterContinuousTimeMode => { s with phase := .continuous, recorded := false }
  | .update =>
    { s with
      phase := .event (!a.info.newDiscreteStatesNeeded)
      terminate := a.info.terminateSimulation
      states := if a.info.valuesChanged then none else s.states
      nominals := s.nominals && !a.info.nominalsChanged
      nextEvent := if a.info.nextEventTimeDefined then some a.info.nextEventTime else none }
  | .completed => { s with stepping := false, terminate := a.terminate, due := s.due || a.stepEvent }
  | .record => { s with recorded := true }

/-- What is known after one more call. -/
noncomputable def Seen.add (strict : Bool) (cfg : Config F) (s : Seen F) (x : Call F × Answer F) : Seen F :=
  if x.2.status = .OK then s.told strict cfg x.1 x.2 else { s with failed := true }

/-- The call is right at this point. -/
def Correct (cfg : Config F) (s : Seen F) (c : Call F) : Prop :=
  s.failed = false ∧ (s.terminate = true → s.phase = .continuous ∧ c = .record) ∧
  match c with
  | .update => ∃ b, s.phase = .event b
  | .enterContinuousTimeMode => s.phase = .event true
  | .enterEventMode => s.phase = .continuous ∧ s.stepping = false ∧ s.recorded = true
  | .getNominals | .getStates => s.phase = .continuous
  | .getIndicators => s.phase = .continuous ∧ s.moved = false
  | .getDerivatives => s.phase = .continuous ∧ s.states.isSome
  | .record => s.phase = .continuous ∧ s.stepping = false
  | .setTime t =>
    s.phase = .continuous ∧ s.stepping = false ∧ s.recorded = true ∧ s.due = false ∧ (cfg.stopTime <=. s.time) = false ∧
      t = Arith.lit (((s.steps + 1) % 2 ^ 64 : Nat) : Rat) *. cfg.h ∧
      (0 < cfg.nx → s.derivatives.isSome ∧ s.nominals = true) ∧ (0 < cfg.nz → s.indicators.isSome)
  | .setStates x =>
    s.phase = .continuous ∧ s.moved = true ∧ ∃ y d, s.states = some y ∧ s.derivatives = some d ∧
      x = (List.range cfg.nx).map fun i => y i +. cfg.h *. d i
  | .completed => s.phase = .continuous ∧ s.stepping = true ∧ s.moved = false ∧ (0 < cfg.nz → s.checked = true)

/-- What is known after a dialogue that began at the time zero. -/
noncomputable def seen (strict : Bool) (cfg : Config F) (d : Dialogue F) : Seen F :=
  d.foldl (Seen.add strict cfg) { time := Arith.lit 0 }

/-- Every call of the dialogue is right at its point. -/
def Obeys (strict : Bool) (cfg : Config F) (d : Dialogue F) : Prop :=
  ∀ before c a after, d = before ++ (c, a) :: after → Correct cfg (seen strict cfg before) c

/-- The importer has a reason to stop. -/
def Seen.Over (cfg : Config F) (s : Seen F) : Prop :=
  s.failed = true ∨ s.terminate = true ∨ (cfg.stopTime <=. s.time) = true

end Verif.Importer.Euler
