# Design: a Lean 4 model of the Reference FMUs

The subject is the C code in `/repo` (modelica/Reference-FMUs): the common FMU
runtime (`src/cosimulation.c`, `src/fmi2Functions.c`, `src/fmi3Functions.c`,
`include/model.h`), the nine models (`*/model.c`, `*/config.h`) and parts of the
importer (`src/FMI.c`, `src/FMI2.c`, `src/FMI3.c`). It was read as text; nothing
was compiled or run.

## Shape of the model

| Lean module | models |
|---|---|
| `Verif/Basic.lean` | status codes, modes, undefined behaviour, C arrays, data types |
| `Verif/Core.lean` | `ModelInstance`, `model.h` macros, `cosimulation.c` |
| `Verif/FMI2.lean` | `fmi2Functions.c`, function by function |
| `Verif/FMI3.lean` | `fmi3Functions.c`, function by function |
| `Verif/History2.lean`, `History3.lean` | call histories: an operation type and `step`/`run` |
| `Verif/Models/*.lean` | the nine `model.c`/`config.h` pairs |
| `Verif/Preempt.lean` | the model partitions of Clocks as interruptible instruction lists, and a scheduler |
| `Verif/XRat.lean`, ... | arithmetics |
| `Verif/Spec/*.lean` | small specifications that do not mention model internals |
| `Verif/Props/*.lean` | the property theorems, with non-vacuity examples |
| `Verif/Lemmas/*.lean` | helper lemmas |
| `Verif/Importer/*.lean` | importer: log buffer, path to URI, mode mirror, memory helpers, path of the binary, the example programs |

### Conventions

* **Outcome.** Every C function becomes a total function into `Outcome α`:
  `ret a` (returned), `ub` (the C code would execute undefined behaviour: NULL or
  out-of-bounds access, signed overflow) or `hang` (the fuel given to an unbounded
  loop ran out). "The call never returns" is `∀ fuel, ... = hang`.
* **Arithmetic.** The code is parametrised by an arbitrary type `F` with the
  operations the C code uses on `double` (`Arith F`): literals, `+ - *`, unary
  minus, `<`, `<=`, conversion from `uint64_t` and to `int`. No laws are assumed, so
  theorems stated for every `F` hold for IEEE-754 doubles too. Theorems that need
  laws use a concrete exact arithmetic: rationals extended by `+inf`, `-inf` and
  `nan` (`XRat`).
* **FMUs.** An FMU is a record `Model F D` (`D` = its `ModelData`) of the functions
  that `model.c` implements, with the stubs of `cosimulation.c` as defaults. The
  FMI 2/3 functions are written once for an arbitrary record. Theorems about "every
  FMU" quantify over the record, or over the nine FMUs where their code matters.
* **Visible and hidden parts.** Model functions receive what the C code of the
  models reads (`Ctx`: time, interface type, mode, callbacks, resource location) and
  what it may change (`MV`: event flags, dirty flag, model data, callback trace).
  That they do not touch solver arrays or the mode is checked by reading `model.c`
  and then enforced by the types.
* **Callbacks** are recorded in a trace. They do not call back into the FMU.

## Properties: what is modelled and how it is proved

* **C01, C02** Masks as bit sets exactly as in C; `allowed` against a separate table
  of (function, modes); per function: if the mode is not in the table, result is
  `Error`, mode `Terminated`, everything else equal. Case analysis on the operation.
* **C03, C04, C05, C06** Invariant over call histories (`run` on lists of operations),
  with slots for saved FMU states covered by the invariant. Induction on the list.
* **C07** Bisimulation: equality on all fields but scratch arrays; two runs from
  related instances give equal outputs. Induction on the continuation.
* **C08** Serialised bytes as an opaque copy of the instance record with a size.
* **C09** Same bisimulation between the instance after `reset` and the instance as it was instantiated. The bisimulation ignores
  the times until they are set (`fmi2SetupExperiment`, `fmi3EnterInitializationMode`) and the solver arrays until the initialization
  allocates them. `Model.Renews` (Lemmas/Restart.lean): the start values written on a part with the event flags of the FMU's invariant
  give the class of the zeroed part. Expected to fail for Stair (`terminateSimulation` survives `reset`) and StateSpace (`x0` does):
  witnesses, and `_partial` theorems under explicit conditions.
* **C10** Decision logic of `createModelInstance` and the three/one entry points.
* **C11** Bisimulation up to derived values and the dirty flag. `Model.Passes` (Lemmas/ReadRel.lean): the functions behind
  getters stay in the equivalence class used for C07; a successful read leads to an equivalent world, and `run_rel` does the
  rest. Expected to fail for Roberts (`y3` is recomputed only while `dae` is false): a coarser equivalence on the model without
  `setBoolean` (`Model.noSet`) for the `_partial` theorem.
* **C12, C13, C14, C15, C16, C17** Accessor functions of each model; loops as recursion
  over reference lists; induction on the list or the history. C12, C13 and C17 use lenses
  (`Lemmas/Lens.lean`): the value a getter gives as a function of time and data.
* **C56** with C13: `Mem.after` (Spec/Held.lean) computes the expected value from the calls;
  simulation relation between that memory and the world, induction on the history.
* **C18** Trace invariant over histories.
* **C19, C20, C21, C22, C23, C24, C25, C26, C51** `doFixedStep` and the two DoStep loops with
  fuel. Logic for every `F`; distances, termination and grid statements in exact
  arithmetic. C20, C22 and C26 are expected to fail without bounds (relative tolerance, NaN
  and infinite arguments): witnesses and `_partial` theorems.
* **C27** The importer loop of `simulate_fmi2_me.c`/`simulate_fmi3_me.c` as functions over the API model
  (`Importer/Euler.lean`, calls through a record of functions, one instance per FMI version). `Laws` (Lemmas/EulerLaws.lean)
  says what successful calls do; a pass of the loop is then "handle the event, if one was found, and make an Euler step".
  In any arithmetic for the FMUs without events, in exact arithmetic (same time, same values) also for BouncingBall.
  StateSpace: an invariant of the program with 3 states (`Lemmas/DriverStateSpaceX.lean`: after k passes the data are k Euler steps from the start) gives its
  rows, which are those of the Co-Simulation program (C65).
  StateSpace (whose importer has no example with inputs) and the event-only FMUs Stair, Feedthrough, Clocks, which have no
  states of interest, are not covered. `Config.of` takes `NX` and `NZ` to be the numbers of the FMU, as the programs are meant; for the programs as
  built see C78. The importer skips the search for events in the step after an event:
  `C27_below_ground`.
* **C28** `FMI2.Simulates`/`FMI3.Simulates` (Spec/Schedule.lean) describe two simulations with the same list of
  communication steps. The loops run in lockstep: the part of the state the FMU's equations depend on (`Snap`) evolves
  by the same function in both builds, for every arithmetic. BouncingBall goes through C57 instead, because the two
  builds save different indicators after an event. Resource (Props/C28Resource.lean) reports what its file contains; the
  times agree by the same lockstep.
* **C46** `FMI3.Handles`: a simulation whose importer handles every event once. Both simulations follow the same
  abstract machine, and in exact arithmetic the time determines the number of solver steps. StateSpace follows from C76 in the same way.
* **C29** Decision logic of the crossing test (any arithmetic), plus a history statement about what `fmi3DoStep` reports:
  `FMI3.Evaluated` (Spec/Crossing.lean) says which height the solver compares with.
* **C30, C31, C32** Induction over solver steps for the concrete models.
* **C57** Refinement: the solver loop follows an abstract machine (`Follows`, Lemmas/Machine.lean) whose
  ticks are the steps of the explicit Euler method with bounces; induction over the loop and the history.
* **C58** Both getters of output derivatives run a loop over the requests; induction over the request list shows that each
  slot is filled with the value the lens of the model gives for der(h) or der(v).
* **C59** Spec/EventInfo.lean: tables of nominal values, `SameStates`, `StairEvent`. The flags are invariants of the model
  variables (`MVInv`), the announcement of Stair is kept by every call that does not forget it (`CallInvX`).
* **C60** Spec/Euler.lean: `Oscillator.next`, `Reaction.next` are the Euler steps written out over the rationals, `ReadsOscillator` /
  `ReadsReaction` what the importer reads. Proved with `run_steps` (a run is a number of Euler steps of the model's own equations) and an
  induction that relates the data to the specification; `Reaction.Physical` is invariant under `Reaction.next`. Finding: the tolerance of
  1e-5 in DoStep is ten solver steps of Roberts.
* **C61** Spec/Legal.lean: `Profile` is the model description as a table (variables, access, counts, capabilities), `Args` the legality of
  the arguments. `Lawful m p` (Lemmas/Lawful.lean) states for each function of `model.c` when it returns OK; inductions over the loops of
  the API functions lift this to `step`. For DoStep, `Ongoing` is carried through the solver loop.
  StateSpace: Spec/LegalStateSpace.lean adds that a call needs as many values as the elements of the variables it names. `getLoop_block` and
  `setLoop_block` (Lemmas/StateSpaceLegal.lean) count the values over the list of references; the dimensions are 3 by `Dim.reachable`.
* **C62** Spec/Callbacks.lean counts lock and unlock in the trace of callbacks and states the events of one activation. The functions of
  `model.c` may only emit these events in a partition (`EvOK`, Lemmas/ModelEff.lean); balance by induction on the history.
* **C63** Spec/Protocol.lean: an FMU is any function from the dialogue to the next answer; `Seen` is what the importer can know, `Correct`
  which calls are right. `Ready` relates the variables of the program to `Seen`; every part of a pass keeps it. Finding: in the step after
  an event the importer overwrites the previous event indicators without looking for a zero crossing.
* **C64** Combines C61 with C45 (no undefined behaviour) and with termination: every function of the API and of `model.c` except DoStep has
  no unbounded loop (`step_ends`, Lemmas/Ends.lean); the loop of DoStep ends as in C26. For StateSpace also with C76 and the counts of C61.
* **C65** `Importer/CoSim.lean` models the two Co-Simulation programs, `Importer/Programs.lean` what examples/<FMU>.c adds. Spec/Simulation.lean
  describes a complete simulation as a relation in which every call returns OK. `Running k` (Lemmas/Driver.lean) is the invariant at the
  communication point `k`: legality of the calls is C61/C64, the position on the time grid C20/C30. The other stop times: the invariant holds
  up to the last communication point before the stop time, where the third check of DoStep fails (Lemmas/DriverRefused.lean).
  `Importer/StateSpace.lean` models the program of StateSpace, which reads a number of values that it has read before; C76 gives the values.
* **C66** `Importer/ModelExchange.lean` puts the loop of `Importer/Euler.lean` between the calls that create, initialise and terminate the
  instance. `Covers` (Spec/SimulationME.lean) says which rows are written. `Drives` (Lemmas/DriverME.lean) lists what the loop needs from an
  FMU, as invariants of Event Mode and Continuous-Time Mode; `simulate_succeeds` derives completion from it and `drivesME` proves it for the
  Reference FMUs from C61/C64. `Importer/Inputs.lean` adds the start values and the inputs (examples/Feedthrough.c):
  `simulateWith` calls `applyStartValues`, `applyContinuousInputs`, `applyDiscreteInputs` and `nextInputEventTime` where the programs do. `LegalInputs`
  and `inputTimes` (Spec/Inputs.lean) say which Set calls are legal and when inputs change; `Feeds` and `simulateWith_succeeds`
  (Lemmas/DriverInputs.lean) extend the invariants. `C66_feedthrough_values` gives the recorded outputs. The theorems hold for the
  programs as they are built (`Macros.built`: `NX` and `NZ` are 0, see the findings) and as they are meant (`Macros.meant`).
  `Importer/StateSpaceME.lean` and Lemmas/DriverStateSpace.lean do the same for the program of StateSpace, as it is built.
* **C67** `Importer/Stepping.lean` models cs_early_return.c, cs_event_mode.c and cs_intermediate_update.c. `Marches` (Spec/Marching.lean) says at
  which times rows are written. `Marching t` (Lemmas/Marching.lean) is the invariant at the time `t`, which need not be a requested
  communication point; `Marching.doStep` shows that a step succeeds from there, by counting the solver steps of the loop (`Loop.early`).
  Every pass advances by at least one solver step, so the loops end. cs_intermediate_update.c is expected to fail: witness.
* **C68** `Importer/Synchronous.lean` models scs_synchronous.c with its callback. `expectedRow` (Spec/Synchronous.lean) counts the ticks of the
  schedule in the table of Clocks/model.c. `Acts w a b c` (Lemmas/Synchronous.lean) says what an activation needs and what was counted.
* **C69** `Spec/StartValues.lean` copies the start values of the model descriptions (variables with `initial="exact"`, parameters, inputs,
  constants). An instance is *untouched* if it is new and *renewed* if it was reset after any history; since then only calls were made that
  neither set anything nor simulate. Then every declared start value is read, for every arithmetic and in every mode that allows reading.
  `step_passive` says that such calls keep the data up to recomputed values, and `setStartValues` is evaluated per FMU. The arrays of StateSpace
  are read through `reads_block`. `x0` of StateSpace is proved for new instances only: Reset does not restore it (`C69_violated`).
* **C70** `Spec/Dependencies.lean` copies the dependency lists of the model descriptions. A lens (`Lemmas/Lens.lean`) gives the value of a
  variable as a function of the time and the data of the model; `Lens.Complete` says that the functions of the dependencies determine the one
  of the unknown, and is checked row by row for arbitrary arithmetic. The instances in the theorems are arbitrary, not only reachable ones.
  `FMI2/3.Constant` gives `dependenciesKind="constant"` in exact arithmetic. `Props/C70Indicators.lean` is about
  `fmi3GetEventIndicators`, C89 about the dependencies on clocks. Not covered: empty lists (outputs that are states declare `dependencies=""`).
* **C71** `Importer/BinaryPath.lean` models `FMIPlatformBinaryPath` with the macros of include/FMI.h as functions of the system and the
  architecture. `Spec/BinaryPath.lean` says what the path of an entry of a directory is (`Reaches`) and lists the platform names; the proof
  joins the names one by one and uses the model of `snprintf` of the log buffer (C42).
* **C72** `Importer/Jacobian.lean` models examples/jacobian.c with its two loops. The loops are proved by induction on the lists of references
  from the laws of the derivative functions (C33, C34), which also leave the partial derivatives unchanged.
* **C73, C74** Model of what is allocated, opened and created (`Importer/Lifecycle.lean`), with an environment that decides every failure;
  proper use as a phase automaton (`Spec/Lifecycle.lean`); invariant: the instance owns exactly its blocks, library and component
  (`Owns`, `Inv` in `Lemmas/Lifecycle.lean`). C74 by induction on the calls.
* **C75** Memory model (`Mem.lean`): a heap of blocks, an allocator that chooses addresses and failures, any number of instance and FMU state
  variables; the functions that allocate and free are modelled on the heap, the others through their model on values. Invariant: every
  block has exactly one owner (`Inv` in `Lemmas/Mem.lean`); refinement of the model on values by cases on the command
  (`Lemmas/MemCalls.lean`).
* **C76** Spec/LinearSystem.lean: `LinearSystem.next` is the Euler step over the rationals, `ReadsSystem` says what the importer reads.
  Dimensions stay 3 (`Dim.reachable`, `DimX.reachable`: `frozen` is the FMU without a setter for dimensions; the two agree on all other
  calls, and the setter always fails). Induction over the loop of `fmi3DoStep` and over the calls (Lemmas/StateSpaceRun.lean).
* **C77** `Importer/Threaded.lean` models scs_threaded.c: a step is a call of the FMU, an access to a global variable or the start of a thread, and a
  schedule (`List Turn`) says who makes the next step. `Inv` (Lemmas/ThreadedInv.lean) holds for all schedules: activations made plus activations that
  running threads still owe are the threads started. `Phase` (Lemmas/ThreadedOnce.lean) follows the announcement of inClock3 through its one thread,
  for schedules that are `Paced` (Spec/Threaded.lean). Both by induction on the schedule. The full statement fails (see the findings).
* **C33, C35** An epsilon-delta derivative over the rationals (Spec/Derivative.lean) for the
  reported right-hand side.
  C35 is expected to fail for the derivative part in ODE mode: witness + `_partial`.
* **C34** Finite sums over lists in a commutative ring.
* **C36, C37** Dimension invariant over histories, also for the values that are read (`Model.Fixed`); matrix equations. Setting dimensions
  with `fmi3SetUInt64` can never succeed (index is advanced before the bounds check),
  `x0` is ignored and `B` is read transposed: witnesses + `_partial`.
* **C38** `Counts.after` (Spec/Clocks.lean) counts the activations in the calls, `memAfter` (Spec/Held.lean) handles
  reset, save and restore; simulation relation and induction on the history, as for C56. **C39** Interleaving model with load/store
  micro-steps, priorities and lock; invariant over all schedules.
* **C40, C41, C42** Byte-level models of the C loops with explicit buffers.
  C41/C42 are expected to fail at the buffer boundary / for some bytes.
* **C43, C44** Product of the wrapper state machine and the FMU model; induction.
  C44 is expected to fail (`FMI3EnterStepMode` does not record the mode).
* **C45** No `ub` outcome for well-formed arguments (`WellFormed`, Spec/WellFormed.lean). `Model.Safe` (Lemmas/NoUb.lean)
  collects what the functions of a model need; the runtime is proved safe once for every `Safe` model, and each FMU is
  proved `Safe`. Invariants over histories: array sizes, dimensions of StateSpace, the counter of Stair.
* **C47** Elementary inequalities over the rationals.
* **C48, C49, C50** Accessor laws, history invariants.
* **C52** Small heap model with an allocation oracle.
* **C78** The rows of the simulation programs against `Spec/Euler.lean` and `Spec/Ball.lean`. Co-Simulation: `Lemmas/Solved.lean` combines the refinement of
  C57/C60 (`Follows`: the data of the instance after k solver steps are the abstract solution after k steps) with the run of the program from C65
  (`Simulated`); every row is then read from an instance in a known abstract state. Model Exchange as built: `Lemmas/Frozen.lean` strengthens the invariant of
  C66 by "the data are those of the start", which every call of a program without integration preserves. Model Exchange with the macros as meant:
  `Lemmas/Recorded.lean` extends the laws of C27 (`Laws`) by the output file (`watch`), so that every row shows data that the integration passes through,
  and the times of the rows come from C66 (`Props/C78Meant.lean`).
* **C79** The attributes of the model descriptions are transcribed as tables (`Spec/Capabilities.lean`, relation `Promises`), one row per FMU. The claims are
  by cases over the table: instantiation is the decision logic of C10, the step size is C19 with the step of the table, the derivatives are C64 and C37, and
  early return is an induction over the loop of `fmi3DoStep`: an FMU without event update, or without indicators and time events, never leaves it.
* **C80** The callbacks that an instance makes are the trace of the model. `Lemmas/Updates.lean` proves that no function of a model adds a call of
  `intermediateUpdate`, that a solver step adds one at its end, and follows the loop of `fmi3DoStep` together with the step counter (`Advanced` of C19).
* **C81** `Spec/FeedthroughRows.lean` gives the signals as functions of the time and the row that shows them. The proof follows the inputs with the machinery of C13
  (a variable has the value of the last Set call) through the rows of C65. For Model Exchange `Lemmas/Fed.lean` follows the program of C66 with inputs for an FMU
  without states and events, together with what the inputs were set to, so that the rows are known exactly.
* **C82** `Props/C82.lean`, `Props/C82ME.lean`, `Props/C82StateSpace.lean`, specification `Spec/ExitStatus.lean`: no FMU is fixed, the theorems hold for every `Model`. `Completed`
  is a run of the Co-Simulation program in which every call succeeds; `Writes` is a history of successful calls with the rows recorded in it; `SomeCallFails` says that a call
  fails after successful calls. Proved by induction over the loops: the macro `CALL` goes on only after OK, and `tearDown` returns the worse of the status and that of
  the termination. The program returns this status as its exit code. Not covered: failures of the file operations in `setUp` (examples/util.h 194-222).
* **C83** `Props/C83.lean`, specification `Spec/Csv.lean`, model `Importer/OutputFile.lean`: `fprintf` is modelled for the conversions `%g`, `%.<n>g`, `%d`, `%s`, everything else
  is undefined; how a number is printed is a parameter. `Written` lists the programs with the text of their formats. From C82 every row comes from successful calls of
  `recordVariables`; the functions that read variables keep the length of the array (`KeepsLength`), so that the format gets the arguments it needs. Rows that are written
  although a variable could not be read (the programs print before they return the status, for example examples/BouncingBall.c 33-35) do not occur in a run with the status OK.
* **C84** `Props/C84.lean`, model `Importer/ResourceLocation.lean`: the path that `realpath` finds is a parameter, the strings that the program builds from it are computed in arrays of
  4096 bytes. `Lemmas/ResourceRun.lean` shows that every row of a program that ends with OK comes from a successful `recordVariables` on a state that the FMU reaches from instantiation;
  C40 (FMI 2.0) and C54 (FMI 3.0) say what it returns there. The branch for Windows is not modelled.
* **C85** `Props/C85.lean`, model `Importer/CallLog.lean` and `Importer/CallLogWrappers.lean` (one definition per wrapper function, with its formats as written in the source), specification
  `Spec/CallLog.lean` and `Spec/Signatures.lean` (the parameters of the functions). `printf` is modelled for the conversions that occur; a conversion that does not match its argument, too few
  arguments and a null pointer for `%s` are undefined behaviour. What the C library prints for floating point numbers and pointers is a parameter. `Lemmas/CallLog.lean` executes the code of a
  wrapper function symbolically (`toksOf`) and proves once and for all that the code is right for all arguments if the result is the message for the signature; the kernel then compares the two
  for every function. The log file comes by induction over the calls from the invariant of the log buffer (C42).
* **C86** `Props/C86.lean`, specification `Spec/Tokens.lean`: the FMUs with the tokens of their model descriptions; consequence of C10 and of the comparison of all pairs of tokens.
* **C87** `Props/C87.lean`, model `Importer/ImportLibrary.lean`: the two programs as functions from what `dlopen`, `dlsym` and the allocator do to a list of effects and the exit status; the FMU is the
  model of the rest of the development, so that C10 decides whether it can be instantiated. Only Linux and macOS.
* **C88** `Props/C88.lean`, model `Importer/Messages.lean`, specification `Spec/Messages.lean`: `vsnprintf` as an interpreter of formats (what the C library prints for floating point numbers is a parameter), the
  functions of the FMU that log, the callbacks of the importer library, and the loop over the log categories with the messages that the program gets. `formats` lists the formats of all messages in the source of the FMUs.
  The calls between FMU and callback go through pointers to functions whose types are compatible up to the names of types; the allocation is a parameter.
* **C89** `Props/C89.lean`, specification `Spec/ClockedVariables.lean` (the `dependencies` and `clocks` in Clocks/FMI3.xml): the model of Clocks as in C38. By induction over the calls: no function of Clocks/model.c
  but the three model partitions changes an output, and each of them changes only the outputs that list its clock. C70 leaves the clocks among the dependencies to this property.
* **C90** `Props/C90.lean`, model `Tools/Lint.lean` (build/lint_files.py: the translation of line ends by Python, the checks, the repair, the selection of the files and the exit status), specification `Spec/Lint.lean`.
  By induction over the lines of a text and over the files.
* **C91** `Props/C91.lean`, model `Tools/Merge.lean` (build/merge_binaries.py: the extraction of the platform FMUs over each other, the version in the model description, the documentation; the platform directories of CMakeLists.txt 43-70), specification `Spec/Merge.lean`.
  By induction over the platforms and the entries; the directories of the platforms are different. The replacement of the version by induction over the text.
  `Props/C91Release.lean` with `Tools/Build.lean` (build/build.py 15 and 117-120, CMakeLists.txt 96-100): every platform that is merged is built.
* **C92** `Props/C92.lean`, `Spec/Stairs.lean`, `Lemmas/Stairs.lean`: the rows that the programs for Stair write, for every communication step size. The
  invariant at communication point `k`: the FMU has made `n` solver steps, handled all events up to `n / 5`, and `n / 5` is the last multiple of 0.2 not after `k h`
  (up to the tolerance); the number of rows from C65, the counter from C32.
  `Props/C92ME.lean`: the programs for Model Exchange, from the invariant of C66 (`Ongoing`: in Continuous-Time Mode the FMU has not ended the simulation),
  and from an invariant of its calls for steps that miss the first event (`Lemmas/StairStuck.lean`).
  `Props/C92Grid.lean`, `Lemmas/StairClimb.lean`: the exact rows of these programs if a second takes a whole number of steps, by induction over the passes through the
  loop (`Spec/Stairs.lean`: `stairsAt` lists the counters shown at a step, two of them at a whole second).
  `C92_violated_fraction`: all other step sizes `p / q` with `q < 50000` miss the first event, since `k p` differs from `q` by at least 1.

## Findings: where code and property disagree

Each line names the theorem(s) that exhibit the disagreement with a concrete history; the
`_partial` theorem of the property excludes exactly these cases.

* **C10** Clocks can be instantiated for Co-Simulation although its description offers only
  Scheduled Execution (`C10_violated`).
* **C06** FMI 3 functions the FMU does not offer return Error without ending the simulation.
* **C12** `Boolean_output` of Feedthrough can be set but does not keep the value; `y3` of Roberts
  can be set in ODE mode but reads back as 1 - y1 - y2.
* **C15** an empty list of references with a non-zero value count is accepted; some accessors
  read the value array before they check its length.
* **C17** the variables `g1`, `g2` of Roberts are never computed and read 0.
* **C18** messages of a failed instantiation carry the category `error`, which no FMU declares.
* **C19, C51** in FMI 3 a Co-Simulation instance in Event Mode accepts `fmi3SetTime`, so time can
  move backwards and off the grid.
* **C20** steps that begin within the tolerance of the last end point accumulate: the FMU's time can
  stay behind the communication point without bound (`C20_violated`).
* **C21** an importer that uses event mode without early return and ignores `eventHandlingNeeded` loses the
  event (`C21_events_needed`); the property excludes this.
* **C22** the tolerance is granted twice (`C22_violated_twice`), and the stop time has no effect on an
  infinite step (`C22_violated_inf`).
* **C26** `DoStep` with an infinite or NaN step size never returns, nor does one over 2^64 solver
  steps (`C26_violated_inf`, `_nan`, `_wrap`).
* **C09, C24** `terminateSimulation` survives Reset (Stair), `x0` survives Reset (StateSpace, not in `setStartValues`), and so does
  the stop time if the instance is initialised without `fmi2SetupExperiment`.
* **C29** `fmi3EnterStepMode` is accepted in Initialization Mode and skips the configuration of the solver: nothing moves
  and no event is found (`C29_violated`).
* **C32** started off the integer grid the counter of Stair never counts (`C32_start_off_grid`); the
  theorems assume start time 0, and FMI 3 without event mode.
* **C35** in ODE mode Roberts' directional derivatives treat `y3` as independent of `y1`, `y2`.
* **C36** `fmi3SetUInt64` of StateSpace never succeeds, so dimensions cannot be changed; the program examples/cs_reconfiguration.c always
  ends with an error (`FMI3.C36_violated_program`).
* **C37** `x0` of StateSpace has no effect on `x`; `B` is written as n by m but read as m by n and
  multiplied with as many inputs as there are outputs.
* **C38** a tick of `outClock` that is not read before the next activation is lost (`C38_violated`).
* **C11** fails for Roberts: reading recomputes `y3` while `dae` is false and the result stays visible after `dae` is set
  (`C11_violated_roberts`).
* **C45** holds in FMI 2.0. In FMI 3.0 Stair, Feedthrough and StateSpace read a value before they check the number of values
  (`C45_violated_stair`, `_feedthrough`, `_stateSpace`), Clocks calls a NULL `clockUpdate` (`_clocks`), Resource overruns its path
  buffer (`_resource`), and the counter of Stair overflows after 2^31 event updates at time infinity (`_stair_overflow`).
* **C39** (observation) a tick of `outClock` can be cleared by a preempting partition before the interrupted one has called
  clockUpdate (`C39_outClock_lost`).
* **C66** the Model Exchange program of StateSpace passes `NX` to `FMI3GetContinuousStates`; with `NX` as `MAX_CONTINUOUS_STATES` (5) the FMU, which has 3 states,
  refuses the call (`C66_violated_stateSpace_meant`). As the program is built (`NX` is 0) it runs, but its outputs never change (`C78_violated_stateSpace`).
* **C65** if the stop time is not a multiple of the communication step size, the Co-Simulation example programs fail in the last step
  (`C65_refused`, `C65_not_multiple`, for StateSpace `C65_refused_stateSpace` and for Stair `C65_refusal`); with the constants of config.h this does not occur. The FMI 2.0 program of Feedthrough announces one value for two
  value references (examples/Feedthrough.c 118), so the discrete input keeps its start value (`FMI2.C81_violated_discrete`).
* **C81** the Model Exchange programs handle an input event only if its time is hit exactly: `nextInputEventTime(time) <= time` (examples/simulate_fmi2_me.c 99,
  examples/simulate_fmi3_me.c 104) holds at 0.5, 1 and 1.5 only, because the function returns the next event time after one has passed. With a step size
  that does not divide these times the discrete inputs are not set any more (`FMI3.C81_violated_missed`); with the constants of config.h this does not occur over exact
  arithmetic.
* **C67** examples/cs_intermediate_update.c cannot succeed: `fmi3DoStep` writes the time reached into `time`, and the program adds the step
  size once more, so the second step is refused (`C67_violated`). In Event Mode, cs_event_mode.c leaves only the event iteration when
  the FMU asks to end the simulation; the flag then ends the main loop, so this is harmless.
* **C69** `fmi3Reset` of StateSpace keeps a value of `x0` that was set before, although the model description declares the start value `0 0 0`
  (StateSpace/model.c 5-37 assigns every variable but `x0`; `FMI3.C69_violated`).
* **C17** BouncingBall/FMI3.xml 71 declares `h` as the event indicator, but `fmi3GetEventIndicators` gives another value with another sign when the
  ball leaves the ground (`FMI3.C17_violated_bouncingBall`).
* **C70** Roberts/FMI3.xml 51 declares that the output `y3` depends on nothing; it is `1 - y1 - y2` (`FMI3.C70_violated`).
  Roberts/fmi-ls-dae.xml 16-23 declares constant factors for the derivatives, which contain the product of `y2` and `y3`
  (`FMI3.C70_constant_violated`).
* **C71** `FMIPlatformBinaryPath` reads before the beginning of an empty directory name (`C71_violated_empty`), and takes a backslash at the
  end of a directory name for a separator on Linux and macOS, too (`C71_violated_backslash`).
* **C73** `loadSymbols3` never loads `fmi3SetShiftDecimal` and `fmi3SetShiftFraction`, so their wrapper functions call NULL;
  with call logging `FMI2SetDebugLogging` and `FMI3SetDebugLogging` print with missing arguments, and three more wrapper functions print a
  pointer with the wrong conversion; `FMI3InstantiateModelExchange` ignores the status of `loadSymbols3`; the example programs
  use a NULL table if the library cannot be opened; `FMICreateInstance` does not check two allocations.
* **C74** `FMI3DoStep` and 13 other wrapper functions of FMI 3.0, and all of FMI 2.0, do not update the field `status`.
* **C75** When memory is exhausted: `createModelInstance` leaks the instance if the name cannot be copied, and silently drops the resource
  location if that cannot be copied; `logMessage` prints to NULL; `fmi2GetFMUstate` returns `fmi2OK` although nothing is saved;
  `fmi2DeSerializeFMUstate` copies to NULL (`C75_violated_*`, `C75_resource_lost`, `C75_save_lost`).
* **C77** examples/scs_threaded.c never joins its threads: a thread that runs after `tearDown` calls the FMU with a released instance
  (`C77_violated_end`). All threads of one clock read `thrArguments[i].activationTime` through the same pointer, which the main program overwrites in
  the next second: if threads are late, inClock3 is announced several times or never (`C77_violated_count`). `cb_clockUpdate` tests the global
  `countdownClocksQualifier[0]` outside the lock, and `GlobalLock` on memory allocated with GMEM_FIXED excludes nobody. An output of partition 3 that
  arrives between `FMI3SetInt32` and `inputs_c2[0] = 0` is lost. With `DEFAULT_STOP_TIME` 3 inClock3 never ticks in this program.
* **C57** (observation) after a bounce the indicator saved for the next step is the one before the bounce,
  so FMI 2.0 and FMI 3.0 Event Mode see a second event one step later, which changes nothing; in FMI 3.0 it is
  reported to the importer.
* **C40, C54** the Resource FMU: see `Props/C40.lean`, `Props/C54.lean`.
* **C41** bytes below 16 and (signed `char`) from 128 on are encoded wrongly, the latter with a
  write beyond the end of the buffer.
* **C42** text that fills the log buffer exactly is cut or the loop never ends; after a failed
  reallocation memory outside is written.
* **C43, C44** the wrapper does not record the mode after restoring a state or after
  `FMI3EnterStepMode`.
* **C52** `FMICalloc` overwrites the caller's pointer with NULL when memory is exhausted.

* **C78** (and the reading of C27, C63, C66). The Model Exchange programs simulate_fmi2_me.c and simulate_fmi3_me.c test `#if NX > 0` and
  `#if NZ > 0`, but no file defines `NX` and `NZ`: config.h defines `MAX_CONTINUOUS_STATES` and `MAX_EVENT_INDICATORS`, and
  Examples.cmake passes neither to the compiler. Undefined identifiers are 0 in `#if`, so the programs are built without the code that gets
  and sets states, derivatives and event indicators. They end with OK (C66), but BouncingBall_me, Dahlquist_me and VanDerPol_me write the
  start values in every row (`C78_violated_*`). C27 and C63 hold for the programs with `NX` and `NZ` as they are meant; with `MAX_CONTINUOUS_STATES` in the place of `NX` the
  program of StateSpace would stop, because the FMU has 3 states and `MAX_CONTINUOUS_STATES` is 5.
* **C79** Roberts declares `hasEventMode="true"`, but it has no event update and refuses `eventModeUsed` (`C79_violated_eventMode`). Roberts declares
  `fixedInternalStepSize` 1e-3 and uses 1e-6, StateSpace declares 1 and uses 1e-3 (`C79_violated_stepSize_*`). Stair does not declare
  `mightReturnEarlyFromDoStep` and returns early (`C79_violated_earlyReturn`). Also seen, not stated as theorems: all FMUs declare
  `canReturnEarlyAfterIntermediateUpdate`, but cosimulation.c (705-722) always passes `canReturnEarly = fmi3False` and ignores the answer; BouncingBall gives
  output derivatives without declaring `maxOutputDerivativeOrder`; Roberts gives directional derivatives in Co-Simulation without declaring them there; the
  default experiment of Clocks ends at 10 in the XML file and at 3 in config.h.
* **C83**, Feedthrough: the format of the string in examples/Feedthrough.c 221, 247 and 319 is `%\"%s\",`, where `%"` is not a conversion specification; the behaviour is
  undefined (C11 7.21.6.1, paragraph 9). `C83_violated_string`, `C83_violated_feedthrough`. Also, the formats in lines 221-222 and 247-248 put two commas after the string, so that a row has eight
  cells and the first line of the file names seven columns.
* **C84**: `resourceURI` (examples/util.h) puts `file://` before the path without encoding it, and the FMU decodes it (C40). In a directory whose path contains `%`, such as
  `/a%20b`, the FMU reads a file in another directory (`C84_violated_percent`). A path of 4088 or more bytes overruns the array for the URI, one of 4095 bytes that for the path
  (`C84_violated_long`). The programs of all other FMUs call the same functions although their FMUs have no resources directory (CMakeLists.txt 265-271): `realpath` fails, and the
  contents of the array, to which `strcat` appends, are undefined by POSIX.
* **C85**: with a function call logger, calls of `FMI2SetDebugLogging` (src/FMI2.c 126) and `FMI3SetDebugLogging` (src/FMI3.c 113) have undefined behaviour: the format has the conversions `%d` and
  `%zu`, but no arguments are passed (`C85_violated_debug`). `FMI3GetNumberOfEventIndicators`, `FMI3GetNumberOfContinuousStates` and `FMI3GetIntervalFraction` pass pointers to `%zu` and `%d`
  (`C85_violated_number`, `C85_violated_fraction`). `FMI3GetBinary` and `FMI3SetBinary` print `nValueReferences` instead of `nValues` sizes: they read behind the end of the array or show too
  few (`C85_violated_binary`, `C85_violated_sizes`). `FMI3SerializeFMUState` shows its parameter under a wrong name (`C85_violated_name`).
* **C86**: Stair and VanDerPol have the same instantiation token (config.h, FMI2.xml, FMI3.xml), so that each library accepts the model description of the other (`C86_violated`).
* **C87**: examples/import_shared_library.c leaves the library open when a function is missing or the instantiation fails (`C87_violated_open`); examples/import_static_library.c uses the value of the pointer `m`
  after the instance was freed (`C87_violated_status`).
* **C88**: src/FMI2.c 29 uses the message of the FMU, which is already formatted, as a format: a percent sign in a string of the user (an unknown log category in `fmi2SetDebugLogging`, the path of the resource file) makes
  `vsnprintf` read arguments that do not exist (`C88_violated_percent`), or the text is changed (`C88_violated_changed`); messages from 4096 characters on are cut off (`C88_violated_long`). src/cosimulation.c 288 does
  not check the result of `calloc` (`C88_violated_memory`).
* **C90**: build/lint_files.py 29 never finds a carriage return, because Python translates line ends (`C90_violated_return`); 23 looks at the last but one character also where the last line has no line end, so that it misses
  a space at the end (`C90_violated_last`) and reports one that is not at the end (`C90_violated_alarm`); 98 uses the number of problems as exit status, of which only eight bits arrive (`C90_violated_status`).
* **C91**: build/merge_binaries.py 157 sets the version only for the models in `parameters` (24-46): Clocks and Roberts are released as "development build" (`C91_violated_version`); 61 takes the list of all tags as the version (`C91_violated_tags`).
* **C92**: examples/simulate_fmi3_cs.c 45-48 leaves the loop when the FMU asks to end the simulation and records nothing more, while simulate_fmi2_cs.c 40-54
  records the variables for the last successful time. The results of Stair with FMI 3.0 therefore end at 8.8 with the counter 9; the last stair is never shown
  (`FMI3.C92_violated_end`).
  The programs for Model Exchange (examples/simulate_fmi2_me.c, simulate_fmi3_me.c) never show the last stair either: the row of the final step is written before the
  events are handled, and the program ends before it records what they changed (`C92_violated_me`, FMI 2.0 and FMI 3.0, every step size). They also do not end a
  step at the next event time. Stair updates the counter only if the time is the event time, so that one event stepped over stops the stairs for ever: for
  every step size that misses the event at 1 second, for example 0.7, every row up to the stop time shows the counter 1 (`C92_violated_step`).

## Trusted base

* Lean 4.33.0's kernel; axioms at most `propext`, `Classical.choice`, `Quot.sound`.
* The idealised arithmetic `XRat` (exact rationals with infinities and NaN) of the statements that
  are not for every arithmetic; `Lemmas/XRatLaws.lean` checks its order and sum laws.
* The reading of the C code recorded in the comments of the model (file and lines).
* Modelled: all functions of the FMUs (src/cosimulation.c, fmi2Functions.c, fmi3Functions.c and the nine model.c); of the importer
  library src/FMI.c (memory, log buffer, URI, path of the binary, life of an instance), the wrapper functions of src/FMI2.c and src/FMI3.c;
  the programs simulate_fmi2_cs.c (with what the nine files <FMU>.c add), simulate_fmi2_me.c, simulate_fmi3_cs.c, simulate_fmi3_me.c, cs_early_return.c, cs_event_mode.c,
  cs_intermediate_update.c, cs_reconfiguration.c, scs_synchronous.c, jacobian.c, import_shared_library.c, import_static_library.c and scs_threaded.c (its threads in C77, the pre-emption of the FMU in C39). The XML
  descriptions enter as tables: start values (C69) and dependencies (C70), transcribed by hand.
* The rest of the model treats instances and FMU states as values; C75 proves that this is right for the blocks of memory they are.
* Not modelled: the C compiler and linker, memory layout, floating point rounding, text formatting by printf (its result enters as a
  string, except for the conversions in C83 and C85), threads other than in C39 and C77, FMI 1.0 (only simulate_fmi1_*.c are in the source),
  the branches for Windows except in C71, the static build of the importer, build scripts (except lint_files.py, C90, and merge_binaries.py with the names of the platforms and models in build.py and CMakeLists.txt, C91) and tests.
