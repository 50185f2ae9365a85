{
 "claims": [
  {
   "property": "C01",
   "status": "proved",
   "theorems": [
    "Verif.FMI2.C01_disallowed_call_refused"
   ],
   "note": "Every FMI 2 operation, every FMU record, every instance state."
  },
  {
   "property": "C02",
   "status": "proved",
   "theorems": [
    "Verif.FMI3.C02_disallowed_call_refused"
   ],
   "note": "Every FMI 3 operation with a mode check. The ten unimplemented functions have no mode check."
  },
  {
   "property": "C03",
   "status": "proved",
   "theorems": [
    "Verif.FMI2.C03_model_exchange_never_steps",
    "Verif.FMI2.C03_co_simulation_never_model_exchange"
   ],
   "note": "Every reachable world, including histories with reset and restore."
  },
  {
   "property": "C04",
   "status": "proved",
   "theorems": [
    "Verif.FMI2.C04_no_pending_step",
    "Verif.FMI2.C04_statuses",
    "Verif.FMI2.C04_never_ok"
   ],
   "note": ""
  },
  {
   "property": "C05",
   "status": "proved",
   "theorems": [
    "Verif.FMI2.C05_error_sticky",
    "Verif.FMI2.C05_getters_keep_working"
   ],
   "note": ""
  },
  {
   "property": "C06",
   "status": "partial",
   "theorems": [
    "Verif.FMI3.C06_error_sticky_partial",
    "Verif.FMI3.C06_violated"
   ],
   "note": "The code violates the full statement: functions the FMU does not offer return Error without terminating. Proved for all other calls; witness for the violation."
  },
  {
   "property": "C07",
   "status": "proved",
   "theorems": [
    "Verif.FMI2.C07_restore",
    "Verif.FMI3.C07_restore"
   ],
   "note": "For all Reference FMUs, reachable instances and call sequences. shown = statuses and outputs of every later call."
  },
  {
   "property": "C08",
   "status": "proved",
   "theorems": [
    "Verif.FMI2.C08_roundtrip",
    "Verif.FMI2.C08_succeeds",
    "Verif.FMI2.C08_wrong_size",
    "Verif.FMI3.C08_roundtrip",
    "Verif.FMI3.C08_succeeds",
    "Verif.FMI3.C08_wrong_size"
   ],
   "note": "Bytes are modelled as the image of the struct they were copied from."
  },
  {
   "property": "C09",
   "status": "partial",
   "theorems": [
    "Verif.FMI2.C09_partial",
    "Verif.FMI2.C09_stair_partial",
    "Verif.FMI2.C09_violated_stair",
    "Verif.FMI2.C09_violated_noSetup",
    "Verif.FMI3.C09_partial",
    "Verif.FMI3.C09_stair_partial",
    "Verif.FMI3.C09_stateSpace_partial",
    "Verif.FMI3.C09_violated_stair",
    "Verif.FMI3.C09_violated_stateSpace"
   ],
   "note": "Proved for every history before the reset and every sequence of calls after it, for all FMUs except Stair and StateSpace; for these two under the condition that Stair is not asking for termination, and that x0 of StateSpace is zero, at the reset. Without the condition the property is false (the _violated_ theorems). The calls after the reset must not use FMU states saved before it, and must follow the standard: FMI 2.0 calls SetupExperiment before the initialisation, FMI 3.0 does not call EnterStepMode in Initialization Mode."
  },
  {
   "property": "C10",
   "status": "partial",
   "theorems": [
    "Verif.FMI2.C10_iff",
    "Verif.FMI2.C10_refused",
    "Verif.FMI2.C10_fresh",
    "Verif.FMI2.C10_oom",
    "Verif.FMI3.C10_me_iff",
    "Verif.FMI3.C10_se_iff",
    "Verif.FMI3.C10_cs_iff_partial",
    "Verif.FMI3.C10_offered",
    "Verif.FMI3.C10_violated",
    "Verif.FMI3.C10_me_refused",
    "Verif.FMI3.C10_se_refused",
    "Verif.FMI3.C10_cs_refused",
    "Verif.FMI3.C10_fresh"
   ],
   "note": "False for one case, proved as C10_violated: Clocks, which offers only Scheduled Execution, can be instantiated for Co-Simulation. Everything else is proved."
  },
  {
   "property": "C11",
   "status": "partial",
   "theorems": [
    "Verif.FMI2.C11",
    "Verif.FMI3.C11_partial",
    "Verif.FMI3.C11_roberts_partial",
    "Verif.FMI3.C11_violated_roberts"
   ],
   "note": "Proved for every FMI 2.0 FMU without a file-backed variable and every such FMI 3.0 FMU except Roberts, for every reachable instance and every later sequence of calls. Missing: Roberts with fmi3SetBoolean called later, where the claim is false (C11_violated_roberts); without such calls it is proved (C11_roberts_partial)."
  },
  {
   "property": "C12",
   "status": "partial",
   "theorems": [
    "Verif.FMI2.C12_fmi2_partial",
    "Verif.FMI2.C12_fmi2_instantiated_partial",
    "Verif.FMI2.C12_violated_feedthrough",
    "Verif.FMI3.C12_fmi3_partial",
    "Verif.FMI3.C12_readable_partial",
    "Verif.FMI3.C12_roberts_y3_partial",
    "Verif.FMI3.C12_violated_roberts",
    "Verif.FMI3.C12_stateSpace"
   ],
   "note": "Proved for every independent variable of every Reference FMU; the arrays of StateSpace in C12_stateSpace. The full statement is false: Boolean_output of Feedthrough and y3 of Roberts in ODE mode accept a value and do not give it back (C12_violated_*)."
  },
  {
   "property": "C13",
   "status": "proved",
   "theorems": [
    "Verif.FMI2.C13_fmi2",
    "Verif.FMI2.C13_fmi2_equal",
    "Verif.FMI2.C13_fmi2_string",
    "Verif.FMI2.C13_fmi2_enum",
    "Verif.FMI3.C13_fmi3",
    "Verif.FMI3.C13_fmi3_equal",
    "Verif.FMI3.C13_fmi3_string",
    "Verif.FMI3.C13_fmi3_binary",
    "Verif.FMI3.C13_fmi3_enum"
   ],
   "note": "All outputs, both FMI versions, every successful history including reset, saving, restoring, serializing and deserializing FMU states."
  },
  {
   "property": "C14",
   "status": "proved",
   "theorems": [
    "Verif.FMI2.C14_fmi2_getReal",
    "Verif.FMI2.C14_fmi2_getInteger",
    "Verif.FMI2.C14_fmi2_getBoolean",
    "Verif.FMI2.C14_fmi2_getString",
    "Verif.FMI2.C14_fmi2_setReal",
    "Verif.FMI2.C14_fmi2_setInteger",
    "Verif.FMI2.C14_fmi2_setBoolean",
    "Verif.FMI2.C14_fmi2_setString",
    "Verif.FMI3.C14_fmi3_get",
    "Verif.FMI3.C14_fmi3_get_stateSpace",
    "Verif.FMI3.C14_fmi3_set"
   ],
   "note": "All reference lists and all worlds. The scalars that the StateSpace FMU accepts in a Set function are never set successfully (see C37), so the claim about setters is about the other FMUs."
  },
  {
   "property": "C15",
   "status": "partial",
   "theorems": [
    "Verif.FMI3.C15_get",
    "Verif.FMI3.C15_set",
    "Verif.FMI3.C15_stateSpace_getFloat64",
    "Verif.FMI3.C15_stateSpace_setFloat64",
    "Verif.FMI3.C15_stateSpace_get",
    "Verif.FMI3.C15_stateSpace_set",
    "Verif.FMI3.C15_violated_empty",
    "Verif.FMI3.C15_violated_ub"
   ],
   "note": "Proved for all FMUs, types and nonempty reference lists, for calls that return. Violations in the code: an empty list with nValues > 0 is accepted; setters of strings, binaries, enumerations and the Stair counter read a missing value out of bounds before the count is checked."
  },
  {
   "property": "C16",
   "status": "proved",
   "theorems": [
    "Verif.FMI2.C16_fmi2_setReal",
    "Verif.FMI2.C16_fmi2_setInteger",
    "Verif.FMI2.C16_fmi2_setBoolean",
    "Verif.FMI2.C16_fmi2_setString",
    "Verif.FMI3.C16_fmi3"
   ],
   "note": "All FMI 2.0 FMUs and the FMI 3.0 FMUs with only scalar variables (all but StateSpace); every type, list and failing position, from every reachable state. Reads after the failure are those after single sets of the references before the offending one."
  },
  {
   "property": "C17",
   "status": "partial",
   "theorems": [
    "Verif.FMI2.C17_fmi2_partial",
    "Verif.FMI2.C17_fmi2_vectors",
    "Verif.FMI3.C17_fmi3_partial",
    "Verif.FMI3.C17_fmi3_vectors",
    "Verif.FMI3.C17_violated_roberts",
    "Verif.FMI3.C17_violated_bouncingBall"
   ],
   "note": "Every dependent variable read satisfies the FMU's equation (Spec/Equations.lean) for the values reported at that moment, and so do the derivative, state and event indicator vectors. StateSpace's matrix equations are in C37. The claim fails for the variables g1, g2 of Roberts, which are never computed (C17_violated_roberts). fmi3GetEventIndicators of BouncingBall does not give the declared variable h when the ball leaves the ground (C17_violated_bouncingBall)."
  },
  {
   "property": "C18",
   "status": "partial",
   "theorems": [
    "Verif.FMI2.C18_messages",
    "Verif.FMI2.C18_switches",
    "Verif.FMI2.C18_violated",
    "Verif.FMI3.C18_messages",
    "Verif.FMI3.C18_switches"
   ],
   "note": "Proved for every message sent during the life of an instance, and for every sequence of SetDebugLogging calls. C18_violated: messages about a failed instantiation are sent with a category that no model description declares, so the claim cannot hold for them."
  },
  {
   "property": "C19",
   "status": "partial",
   "theorems": [
    "Verif.FMI2.C19_fmi2",
    "Verif.FMI3.C19_fmi3_partial",
    "Verif.FMI3.C19_fmi3_violated"
   ],
   "note": "FMI 2.0 in full; FMI 3.0 without fmi3SetTime, which the FMUs accept from Co-Simulation instances in Event Mode, with a machine-checked counterexample."
  },
  {
   "property": "C20",
   "status": "partial",
   "theorems": [
    "Verif.FMI2.C20_fmi2_partial",
    "Verif.FMI3.C20_fmi3_partial",
    "Verif.FMI3.C20_violated"
   ],
   "note": "exact arithmetic; finite arguments, exactly chained communication points; creeping within the tolerance refutes the full claim"
  },
  {
   "property": "C21",
   "status": "proved",
   "theorems": [
    "Verif.FMI2.C21_fmi2",
    "Verif.FMI2.C21_fmi2_cut",
    "Verif.FMI3.C21_fmi3",
    "Verif.FMI3.C21_fmi3_cut",
    "Verif.FMI3.C21_events_needed"
   ],
   "note": "exact arithmetic (communication points are computed without rounding); equality of the whole state; joining and cutting. Cutting in FMI 3 is for instances without event mode"
  },
  {
   "property": "C22",
   "status": "partial",
   "theorems": [
    "Verif.FMI2.C22_fmi2_partial",
    "Verif.FMI2.C22_violated_inf",
    "Verif.FMI3.C22_fmi3_partial",
    "Verif.FMI3.C22_violated_twice"
   ],
   "note": "exact arithmetic, finite arguments; the tolerance may be granted twice, an infinite step ignores the stop time"
  },
  {
   "property": "C23",
   "status": "proved",
   "theorems": [
    "Verif.FMI2.C23_rejected_step",
    "Verif.FMI3.C23_rejected_step"
   ],
   "note": "The expected communication point and stop time are computed from the history by a separate specification. A NaN step size is not refused; see C26."
  },
  {
   "property": "C24",
   "status": "partial",
   "theorems": [
    "Verif.FMI2.C24_discarded",
    "Verif.FMI2.C24_iff_requested",
    "Verif.FMI2.C24_history",
    "Verif.FMI2.C24_violated"
   ],
   "note": "fmi2DoStep returns Discard exactly when the termination flag is raised during the step, with the documented status values. Exact as long as the flag was false before the call, which C24_history shows for every history in which all earlier DoSteps returned OK. C24_violated: the request of Stair survives fmi2Reset, so a DoStep after Reset is discarded although nothing asked for it."
  },
  {
   "property": "C25",
   "status": "proved",
   "theorems": [
    "Verif.FMI3.C25_outputs"
   ],
   "note": "The outputs of fmi3DoStep (lastSuccessfulTime, earlyReturn, terminateSimulation, eventHandlingNeeded) agree with the state after the call, for every reference FMU and every reachable state."
  },
  {
   "property": "C26",
   "status": "partial",
   "theorems": [
    "Verif.FMI2.C26_fmi2_partial",
    "Verif.FMI2.C26_violated_inf",
    "Verif.FMI2.C26_violated_nan",
    "Verif.FMI2.C26_violated_wrap",
    "Verif.FMI3.C26_fmi3_partial",
    "Verif.FMI3.C26_violated"
   ],
   "note": "exact arithmetic, finite arguments, fewer than 2^64 solver steps; never returns for infinite and NaN step sizes"
  },
  {
   "property": "C27",
   "status": "partial",
   "theorems": [
    "Verif.C27_dahlquist_fmi2",
    "Verif.C27_dahlquist_exact_fmi2",
    "Verif.C27_dahlquist_fmi3",
    "Verif.C27_dahlquist_exact_fmi3",
    "Verif.C27_vanDerPol_fmi2",
    "Verif.C27_vanDerPol_exact_fmi2",
    "Verif.C27_vanDerPol_fmi3",
    "Verif.C27_vanDerPol_exact_fmi3",
    "Verif.C27_roberts_fmi3",
    "Verif.C27_roberts_exact_fmi3",
    "Verif.C27_bouncingBall_fmi2",
    "Verif.C27_bouncingBall_fmi3",
    "Verif.C27_below_ground",
    "Verif.FMI3.C27_stateSpace_partial"
   ],
   "note": "Dahlquist, VanDerPol (both FMI versions) and Roberts in any arithmetic and, with equal times, in exact arithmetic; BouncingBall in exact arithmetic including its bounces, for a ball that starts above the ground or is not going to fall (C27_below_ground shows the hypothesis is needed: the importer does not look for events in the step after an event). Conditional on the importer calls succeeding. StateSpace: the program for Model Exchange with NX = 3 (the number of states of the instance) and the program for Co-Simulation write the same rows (C27_stateSpace_partial); with NX = MAX_CONTINUOUS_STATES the program fails (C66_violated_stateSpace_meant). The FMUs without physical states (Stair, Feedthrough, Clocks, Resource) are not covered. For the Model Exchange programs with the macros NX and NZ as they are meant; for the programs as they are built see C78."
  },
  {
   "property": "C28",
   "status": "partial",
   "theorems": [
    "Verif.C28_dahlquist",
    "Verif.C28_vanDerPol",
    "Verif.C28_stair",
    "Verif.C28_feedthrough",
    "Verif.Resource.C28_resource",
    "Verif.C28_bouncingBall_partial"
   ],
   "note": "All FMUs that exist in both versions, every schedule of communication steps. Dahlquist, VanDerPol, Stair, Feedthrough and Resource in any arithmetic; BouncingBall (whose builds save different event indicators after an event) only in exact arithmetic."
  },
  {
   "property": "C29",
   "status": "partial",
   "theorems": [
    "Verif.FMI2.C29_solver",
    "Verif.FMI3.C29_solver",
    "Verif.FMI3.C29_reported_partial",
    "Verif.FMI3.C29_violated"
   ],
   "note": "Every FMU, every reachable state, any arithmetic for the solver step; what the importer is told is proved for BouncingBall in exact arithmetic with Event Mode and early return. False after fmi3EnterStepMode in Initialization Mode (C29_violated)."
  },
  {
   "property": "C30",
   "status": "proved",
   "theorems": [
    "Verif.FMI2.C30_fmi2",
    "Verif.FMI2.C30_fmi2_bounded",
    "Verif.FMI3.C30_fmi3"
   ],
   "note": "Exact arithmetic (rationals with infinities and NaN). FMI 3.0: for instances that did not call fmi3EnterStepMode in Initialization Mode (that call skips the allocation of the state arrays)."
  },
  {
   "property": "C31",
   "status": "proved",
   "theorems": [
    "Verif.FMI2.C31_event_fmi2",
    "Verif.FMI2.C31_rest_fmi2",
    "Verif.FMI3.C31_event_fmi3",
    "Verif.FMI3.C31_rest_fmi3"
   ],
   "note": "Exact arithmetic. FMI 3.0 rest theorem for instances that did not call fmi3EnterStepMode in Initialization Mode."
  },
  {
   "property": "C32",
   "status": "proved",
   "theorems": [
    "Verif.FMI2.C32_fmi2",
    "Verif.FMI3.C32_fmi3",
    "Verif.FMI2.C32_start_off_grid"
   ],
   "note": "FMI 2.0 and FMI 3.0 (event mode not used, early return allowed or not), exact arithmetic, all schedules and numbers of calls without an error status; C32_start_off_grid records that the start time 0 matters."
  },
  {
   "property": "C33",
   "status": "proved",
   "theorems": [
    "Verif.FMI2.C33_fmi2",
    "Verif.FMI3.C33_fmi3"
   ],
   "note": "For all states, parameters, seeds and lists of knowns the returned sensitivities are the derivative (epsilon-delta, Spec/Derivative.lean) of the reported right-hand side in the seed direction."
  },
  {
   "property": "C34",
   "status": "proved",
   "theorems": [
    "Verif.FMI2.C34_fmi2_defined",
    "Verif.FMI2.C34_fmi2_add",
    "Verif.FMI2.C34_fmi2_smul",
    "Verif.FMI3.C34_fmi3_defined",
    "Verif.FMI3.C34_fmi3_add",
    "Verif.FMI3.C34_fmi3_smul",
    "Verif.FMI3.C34_fmi3_adjoint"
   ],
   "note": "All list lengths, all seeds, exact arithmetic, both FMUs with derivatives (VanDerPol, Roberts)."
  },
  {
   "property": "C35",
   "status": "partial",
   "theorems": [
    "Verif.FMI3.C35_mass",
    "Verif.FMI3.C35_derivatives_partial",
    "Verif.FMI3.C35_violated"
   ],
   "note": "Mass conservation and zero residual in ODE mode are proved for all states. The directional derivatives are right if dae is set; in ODE mode they ignore that y3 depends on y1 and y2 (C35_violated)."
  },
  {
   "property": "C36",
   "status": "partial",
   "theorems": [
    "Verif.FMI3.C36_bound_partial",
    "Verif.FMI3.C36_refused_partial",
    "Verif.FMI3.C36_violated",
    "Verif.FMI3.C36_violated_applied",
    "Verif.FMI3.C36_fixed_partial",
    "Verif.FMI3.C36_violated_program",
    "Verif.FMI3.C36_three",
    "Verif.FMI3.C36_violated_applied_always"
   ],
   "note": "Dimensions never exceed 5 in any history and larger values are refused without effect. The claim that 0..5 can be set is false: fmi3SetUInt64 of StateSpace never returns OK for a nonempty list (proved for all states and arguments), and with one value too many it fails but changes the dimension. C36_fixed_partial: outside Configuration Mode and Reconfiguration Mode no history changes the dimensions that are read, unless it enters Configuration Mode, resets the instance or restores a state. C36_violated_program: the example program cs_reconfiguration.c, which sets the dimensions, therefore always ends with Error before it has recorded a row. C36_three: in every history there are three inputs, states and outputs unless the instance is in the mode Terminated, into which a failing call leads. C36_violated_applied_always: for every dimension and every value up to 5, in Configuration Mode and Reconfiguration Mode."
  },
  {
   "property": "C37",
   "status": "partial",
   "theorems": [
    "Verif.FMI3.C37_output",
    "Verif.FMI3.C37_state_partial",
    "Verif.FMI3.C37_readback_partial",
    "Verif.FMI3.C37_violated_x0",
    "Verif.FMI3.C37_violated_der",
    "Verif.FMI3.C37_violated_B",
    "Verif.FMI3.C37_state",
    "Verif.FMI3.C37_readback"
   ],
   "note": "y = C x + D u for all dimensions. der(x) = A x + B u and the read-back of B hold if the dimensions are equal and fail otherwise (C37_violated_der, C37_violated_B); x0 has no effect on x (C37_violated_x0). C37_state, C37_readback: as long as the instance is not in the mode Terminated the dimensions are all 3, and both claims hold without a hypothesis on dimensions."
  },
  {
   "property": "C38",
   "status": "partial",
   "theorems": [
    "Verif.FMI3.C38_sum",
    "Verif.FMI3.C38_counts_partial",
    "Verif.FMI3.C38_delivered",
    "Verif.FMI3.C38_at_most_once",
    "Verif.FMI3.C38_interval_delivered",
    "Verif.FMI3.C38_interval_at_most_once",
    "Verif.FMI3.C38_violated"
   ],
   "note": "All variables, outClock and the interval of inClock3 after every successful history (C38_counts_partial), and the sum of the counters after every history whatever (C38_sum). A tick of outClock is delivered at most once, and exactly once if it is read before the next activation; otherwise it is lost (C38_violated). Intervals are reported as changed exactly once."
  },
  {
   "property": "C39",
   "status": "proved",
   "theorems": [
    "Verif.Clocks.C39_counts",
    "Verif.Clocks.C39_sum",
    "Verif.Clocks.C39_alone",
    "Verif.Clocks.C39_needs_locks",
    "Verif.Clocks.C39_needs_priorities",
    "Verif.Clocks.C39_outClock_lost"
   ],
   "note": "Interleaving model with one access to a variable per step (Verif/Preempt.lean), any nesting and number of activations, any priorities in which no clock comes before inClock1; the importer may also call fmi3GetClock, fmi3GetIntervalDecimal and fmi3SetInt32 in between. C39_alone: an uninterrupted activation has the effect of the partition in the FMU model. The locks and the priorities are both needed. Observation: a tick of outClock can be lost between unlock and clockUpdate even with locks."
  },
  {
   "property": "C40",
   "status": "partial",
   "theorems": [
    "Verif.Resource.C40_partial",
    "Verif.Resource.C40_refused",
    "Verif.Resource.C40_nothing_read",
    "Verif.Resource.C40_bounded",
    "Verif.Resource.C40_violated"
   ],
   "note": "Proved for every location whose decoded path fits with /y.txt into 4095 bytes; other schemes are refused and nothing is ever read; the buffer is never overrun. Longer paths are silently cut: C40_violated."
  },
  {
   "property": "C41",
   "status": "partial",
   "theorems": [
    "Verif.Importer.C41_partial",
    "Verif.Importer.C41_violated_low",
    "Verif.Importer.C41_violated_high",
    "Verif.Importer.C41_violated_high_decoding"
   ],
   "note": "Proved for every path of bytes >= 16 (and < 128 where char is signed), every buffer and announced length. Other bytes: the claim is false, witnesses proved."
  },
  {
   "property": "C42",
   "status": "partial",
   "theorems": [
    "Verif.Importer.C42_partial",
    "Verif.Importer.C42_violated_truncated",
    "Verif.Importer.C42_violated_endless",
    "Verif.Importer.C42_violated_outside"
   ],
   "note": "Proved for every sequence of operations that never fills a buffer of 1024*2^k bytes exactly and no failed reallocation. At the boundary text is lost or the loop never ends, and after a failed reallocation memory is overrun: witnesses proved."
  },
  {
   "property": "C43",
   "status": "partial",
   "theorems": [
    "Verif.Importer.C43_partial",
    "Verif.Importer.C43_violated"
   ],
   "note": "Proved for every FMU and every history of successful calls where FMU states are restored in the mode they were saved in. Otherwise false, witness proved."
  },
  {
   "property": "C44",
   "status": "partial",
   "theorems": [
    "Verif.Importer.C44_partial",
    "Verif.Importer.C44_violated_enterStepMode",
    "Verif.Importer.C44_violated_setFMUState"
   ],
   "note": "Proved for every FMU and every history of successful calls without FMI3EnterStepMode where FMU states are restored in the mode they were saved in. Otherwise false, witnesses proved."
  },
  {
   "property": "C45",
   "status": "partial",
   "theorems": [
    "Verif.FMI2.C45",
    "Verif.FMI2.C45_arrays",
    "Verif.FMI3.C45_robust",
    "Verif.FMI3.C45_arrays",
    "Verif.FMI3.C45_resource_partial",
    "Verif.FMI3.C45_feedthrough_partial",
    "Verif.FMI3.C45_stateSpace_partial",
    "Verif.FMI3.C45_stair_partial",
    "Verif.FMI3.C45_clocks_partial",
    "Verif.FMI3.C45_violated_stair",
    "Verif.FMI3.C45_violated_feedthrough",
    "Verif.FMI3.C45_violated_stateSpace",
    "Verif.FMI3.C45_violated_clocks",
    "Verif.FMI3.C45_violated_resource",
    "Verif.FMI3.C45_violated_stair_overflow"
   ],
   "note": "FMI 2.0: all Reference FMUs, every history and every well-formed call. FMI 3.0: BouncingBall, Dahlquist, Roberts, VanDerPol without further condition; Resource with a path below 4096 bytes; Feedthrough and StateSpace if no Set call announces fewer values than variables; Stair in addition during the first 2^31-12 calls; Clocks if clockUpdate is given and the counters fit an int. The C45_violated theorems show that the property fails without these conditions."
  },
  {
   "property": "C46",
   "status": "partial",
   "theorems": [
    "Verif.C46_bouncingBall_partial",
    "Verif.C46_stair_partial",
    "Verif.C46_feedthrough_partial",
    "Verif.C46_stateSpace"
   ],
   "note": "Exact arithmetic, BouncingBall, Stair and Feedthrough: simulations from the same values to the same time end with the same values, with or without Event Mode and early return, for an importer that handles every reported event once. StateSpace (C46_stateSpace) likewise, for every linear system with 3 inputs, states and outputs. Clocks does not declare Co-Simulation (Clocks/FMI3.xml has only ScheduledExecution), so that no importer makes its steps."
  },
  {
   "property": "C47",
   "status": "proved",
   "theorems": [
    "Verif.C47_decides",
    "Verif.C47_infinite",
    "Verif.C47_symmetric",
    "Verif.C47_reflexive",
    "Verif.C47_apart",
    "Verif.C47_between",
    "Verif.C47_nan"
   ],
   "note": "Exact rationals extended by infinities and NaN."
  },
  {
   "property": "C48",
   "status": "proved",
   "theorems": [
    "Verif.FMI2.C48_fmi2_length",
    "Verif.FMI2.C48_fmi2_accepted",
    "Verif.FMI2.C48_fmi2_roundtrip",
    "Verif.FMI2.C48_fmi2_nominals",
    "Verif.FMI3.C48_fmi3_announced",
    "Verif.FMI3.C48_fmi3_length",
    "Verif.FMI3.C48_fmi3_length_indicators",
    "Verif.FMI3.C48_fmi3_accepted",
    "Verif.FMI3.C48_fmi3_roundtrip",
    "Verif.FMI3.C48_fmi3_nominals"
   ],
   "note": "all FMI 2.0 and 3.0 Reference FMUs; acceptance in FMI 3.0 uses the invariant that the dimensions of StateSpace stay at most 5"
  },
  {
   "property": "C49",
   "status": "proved",
   "theorems": [
    "Verif.FMI2.C49_fmi2_dahlquist",
    "Verif.FMI2.C49_fmi2_feedthrough",
    "Verif.FMI3.C49_fmi3_dahlquist",
    "Verif.FMI3.C49_fmi3_feedthrough"
   ],
   "note": "Both FMUs that declare fixed parameters, both FMI versions, any histories without Reset and SetFMUState."
  },
  {
   "property": "C50",
   "status": "proved",
   "theorems": [
    "Verif.FMI2.C50_no_second_iteration",
    "Verif.FMI3.C50_no_second_iteration"
   ],
   "note": "All histories."
  },
  {
   "property": "C51",
   "status": "partial",
   "theorems": [
    "Verif.FMI2.C51_fmi2",
    "Verif.FMI2.C51_fmi2_exact",
    "Verif.FMI3.C51_fmi3_partial",
    "Verif.FMI3.C51_fmi3_exact_partial",
    "Verif.FMI3.C51_fmi3_violated"
   ],
   "note": "For every arithmetic with ascending grid points (shown for exact arithmetic) and fewer than 2^64 solver steps; FMI 3.0 without fmi3SetTime, with a machine-checked counterexample."
  },
  {
   "property": "C52",
   "status": "partial",
   "theorems": [
    "Verif.Importer.Memory.C52_partial",
    "Verif.Importer.Memory.C52_violated"
   ],
   "note": "Proved for every sequence of calls and every behaviour of the C library allocator, except that FMICalloc replaces the pointer by NULL when memory is exhausted (witness proved)."
  },
  {
   "property": "C53",
   "status": "proved",
   "theorems": [
    "Verif.FMI2.C53_mode_after_call",
    "Verif.FMI3.C53_mode_after_call"
   ],
   "note": ""
  },
  {
   "property": "C54",
   "status": "partial",
   "theorems": [
    "Verif.Resource.C54_partial",
    "Verif.Resource.C54_violated"
   ],
   "note": "Proved for paths up to 4090 bytes and all histories; from 4096 bytes on the FMU executes undefined behaviour (proved)."
  },
  {
   "property": "C55",
   "status": "partial",
   "theorems": [
    "Verif.Resource.C55_partial"
   ],
   "note": "Composition of C41 and C40 under their conditions on bytes and lengths."
  },
  {
   "property": "C56",
   "status": "proved",
   "theorems": [
    "Verif.FMI2.C56_fmi2",
    "Verif.FMI3.C56_fmi3"
   ],
   "note": "For the parameters and inputs listed in Spec/Held.lean; the exceptions are named in the property."
  },
  {
   "property": "C57",
   "status": "proved",
   "theorems": [
    "Verif.FMI2.C57_fmi2",
    "Verif.FMI2.C57_above_fmi2",
    "Verif.FMI3.C57_fmi3",
    "Verif.FMI3.C57_above_fmi3"
   ],
   "note": "Exact arithmetic. The trajectory is Ball.next (Spec/Ball.lean); Handled (Spec/Handled.lean) says that every reported event is handled by UpdateDiscreteStates before the next DoStep. In FMI 3.0 with an event still to be handled at the end the ball reported is the one before the bounce."
  },
  {
   "property": "C58",
   "status": "proved",
   "theorems": [
    "Verif.FMI2.C58_fmi2",
    "Verif.FMI2.C58_fmi2_others",
    "Verif.FMI3.C58_fmi3",
    "Verif.FMI3.C58_fmi3_others"
   ],
   "note": "Any arithmetic, every list of value references and orders."
  },
  {
   "property": "C59",
   "status": "proved",
   "theorems": [
    "Verif.FMI2.C59_nominals_fmi2",
    "Verif.FMI2.C59_event_info_fmi2",
    "Verif.FMI2.C59_timeless_fmi2",
    "Verif.FMI2.C59_completed_fmi2",
    "Verif.FMI2.C59_stair_first_fmi2",
    "Verif.FMI2.C59_stair_fmi2",
    "Verif.FMI3.C59_nominals_fmi3",
    "Verif.FMI3.C59_event_info_fmi3",
    "Verif.FMI3.C59_timeless_fmi3",
    "Verif.FMI3.C59_completed_fmi3",
    "Verif.FMI3.C59_stair_first_fmi3",
    "Verif.FMI3.C59_stair_fmi3",
    "Verif.FMI3.C59_nominals_statespace"
   ],
   "note": "Nominal values, event info and completedIntegratorStep for every arithmetic; the Stair theorems in exact rational arithmetic. SameStates compares the status and values of getContinuousStates before and after the update."
  },
  {
   "property": "C60",
   "status": "proved",
   "theorems": [
    "Verif.FMI2.C60_vanDerPol_fmi2",
    "Verif.FMI3.C60_vanDerPol_fmi3",
    "Verif.FMI3.C60_roberts_fmi3",
    "Verif.FMI3.C60_roberts_physical"
   ],
   "note": "Exact rational arithmetic (the C code computes in doubles). Roberts in ODE mode (dae = false). Physical initial concentrations with y2 <= 1/31 stay physical."
  },
  {
   "property": "C61",
   "status": "partial",
   "theorems": [
    "Verif.FMI2.C61",
    "Verif.FMI2.C61_doStep",
    "Verif.FMI3.C61_partial",
    "Verif.FMI3.C61_doStep_partial",
    "Verif.FMI3.C61_stateSpace_partial",
    "Verif.FMI3.C61_doStep_stateSpace_partial"
   ],
   "note": "Missing: StateSpace in the mode Terminated, where a failed fmi3SetUInt64 may have left other dimensions. Resource needs an existing resource file; the event functions and DoStep of Stair need a counter below 10 (afterwards the FMU has requested termination). The profile of an FMU lists what its XML and its setters agree on; Boolean_output of Feedthrough can be set although the XML declares an output, and the structural parameters of StateSpace can not be set although the XML declares them tunable (C36)."
  },
  {
   "property": "C62",
   "status": "proved",
   "theorems": [
    "Verif.FMI3.C62_activation",
    "Verif.FMI3.C62_quiet",
    "Verif.FMI3.C62_balanced"
   ],
   "note": "Callbacks of Scheduled Execution in Clocks. The callbacks are events in a trace; they do not call back into the FMU (concurrent activations: C39)."
  },
  {
   "property": "C63",
   "status": "partial",
   "theorems": [
    "Verif.Importer.Euler.C63_partial",
    "Verif.Importer.Euler.C63_violated"
   ],
   "note": "Any FMU that answers arbitrarily, any numbers of states and event indicators, any step size, any number of passes. False for zero crossings in the first step after an event, which the example importers overlook (C63_violated); everything else is proved. For the Model Exchange programs with the macros NX and NZ as they are meant; for the programs as they are built see C78."
  },
  {
   "property": "C64",
   "status": "partial",
   "theorems": [
    "Verif.FMI2.C64",
    "Verif.FMI2.C64_doStep",
    "Verif.FMI3.C64_partial",
    "Verif.FMI3.C64_activate_partial",
    "Verif.FMI3.C64_doStep_partial",
    "Verif.FMI3.C64_stateSpace_partial",
    "Verif.FMI3.C64_doStep_stateSpace_partial"
   ],
   "note": "FMI 2.0 complete. FMI 3.0: StateSpace except in the mode Terminated (its UInt64 setter breaks the property, C36); model partitions need the clockUpdate callback and counters below 2^31 (C45). DoStep: finite arguments and step counts below 2^64 (C26)."
  },
  {
   "property": "C65",
   "status": "partial",
   "theorems": [
    "Verif.FMI2.C65",
    "Verif.FMI2.C65_complete",
    "Verif.FMI2.C65_refused",
    "Verif.FMI2.C65_not_multiple",
    "Verif.FMI3.C65_partial",
    "Verif.FMI3.C65_complete_partial",
    "Verif.FMI3.C65_refused_partial",
    "Verif.FMI3.C65_not_multiple",
    "Verif.FMI3.C65_stateSpace",
    "Verif.FMI3.C65_stateSpace_rows",
    "Verif.FMI2.C65_refusal",
    "Verif.FMI3.C65_refusal_partial",
    "Verif.FMI3.C65_refused_stateSpace"
   ],
   "note": "Proved for all FMI 2.0 FMUs and, in FMI 3.0, for all but StateSpace with any legal lists, over rationals (no rounding); for StateSpace with its own program examples/StateSpace.c, for every step size and number of steps, with the recorded values. C65_refused: for every stop time between two multiples (not within the tolerance of the later one) the program ends with an error after the rows up to the earlier multiple. C65_refusal and C65_refused_stateSpace: the same for Stair, unless it has ended the simulation before, and for StateSpace. Missing: StateSpace with other lists of start values, inputs and recorded variables. The concrete programs of all FMUs are shown to meet the hypotheses. The bounds on the step counter and the loop fuel are explicit hypotheses."
  },
  {
   "property": "C66",
   "status": "partial",
   "theorems": [
    "Verif.FMI2.C66",
    "Verif.FMI2.C66_no_events",
    "Verif.FMI2.C66_inputs",
    "Verif.FMI2.C66_feedthrough",
    "Verif.FMI2.C66_feedthrough_values",
    "Verif.FMI3.C66_partial",
    "Verif.FMI3.C66_no_events_partial",
    "Verif.FMI3.C66_inputs_partial",
    "Verif.FMI3.C66_feedthrough",
    "Verif.FMI3.C66_stateSpace",
    "Verif.FMI3.C66_violated_stateSpace_meant"
   ],
   "note": "FMI 2.0: all Reference FMUs; FMI 3.0: all Reference FMUs for Model Exchange with any legal lists of recorded variables, but StateSpace only with its own program examples/StateSpace.c (C66_stateSpace). C66 and C66_no_events: the programs without start values and inputs, as for BouncingBall, Dahlquist, Resource, Stair and VanDerPol; C66_inputs: the programs with any legal start values and inputs, as for Feedthrough. Holds for the programs as they are built (NX = NZ = 0, see C78) and for the programs with the macros as they are meant, except StateSpace: if NX were MAX_CONTINUOUS_STATES, 5, the program would end with fmi3Error, because the FMU has 3 states (C66_violated_stateSpace_meant)."
  },
  {
   "property": "C67",
   "status": "partial",
   "theorems": [
    "Verif.FMI3.C67_early_return_partial",
    "Verif.FMI3.C67_event_mode_partial",
    "Verif.FMI3.C67_violated"
   ],
   "note": "cs_early_return and cs_event_mode: all Reference FMUs but StateSpace, step sizes that are multiples of the solver step size. cs_intermediate_update cannot succeed: negation proved (C67_violated)."
  },
  {
   "property": "C68",
   "status": "proved",
   "theorems": [
    "Verif.C68"
   ],
   "note": "The callback is executed when the activation has returned, which is the same order since it is the last action of a model partition."
  },
  {
   "property": "C69",
   "status": "partial",
   "theorems": [
    "Verif.FMI2.C69",
    "Verif.FMI3.C69",
    "Verif.FMI3.C69_stateSpace_partial",
    "Verif.FMI3.C69_x0",
    "Verif.FMI3.C69_violated"
   ],
   "note": "Every start value of every FMU, for new and for reset instances. The exception is x0 of StateSpace, which holds for new instances; C69_violated shows that fmi3Reset does not restore it."
  },
  {
   "property": "C70",
   "status": "partial",
   "theorems": [
    "Verif.FMI2.C70",
    "Verif.FMI2.C70_constant",
    "Verif.FMI3.C70_partial",
    "Verif.FMI3.C70_constant_partial",
    "Verif.FMI3.C70_violated",
    "Verif.FMI3.C70_constant_violated",
    "Verif.FMI3.C70_indicators",
    "Verif.FMI3.C70_indicators_constant"
   ],
   "note": "All non-empty dependency lists of scalar unknowns, any arithmetic; the constant kinds of the Float64 rows in exact arithmetic. C70_violated: the output y3 of Roberts is declared to depend on nothing. C70_constant_violated: fmi-ls-dae.xml declares constant factors for the non-linear derivatives of Roberts. C70_indicators and C70_indicators_constant: the results of fmi3GetEventIndicators of Roberts (the variables g1 and g2 are never computed, see C17). The dependencies of the outputs of Clocks on clocks are C89."
  },
  {
   "property": "C71",
   "status": "partial",
   "theorems": [
    "Verif.Importer.C71_partial",
    "Verif.Importer.C71_violated_empty",
    "Verif.Importer.C71_violated_backslash"
   ],
   "note": "Every system, architecture, version, identifier and buffer. Missing: the empty directory name (a character before the string is read) and, but for Windows, names that end with a backslash (the path is not in that directory); both are shown to violate the statement."
  },
  {
   "property": "C72",
   "status": "proved",
   "theorems": [
    "Verif.FMI3.C72",
    "Verif.FMI3.C72_vanDerPol",
    "Verif.C72_program"
   ],
   "note": "Exact arithmetic, finite values. The FMUs are those that provide directional derivatives (VanDerPol and Roberts); that the entries are the derivatives of the reported values is proved for VanDerPol, the FMU of the program."
  },
  {
   "property": "C73",
   "status": "partial",
   "theorems": [
    "Verif.Importer.C73_partial",
    "Verif.Importer.C73_program_partial",
    "Verif.Importer.C73_violated",
    "Verif.Importer.C73_violated_shift",
    "Verif.Importer.C73_violated_debugLogging",
    "Verif.Importer.C73_violated_modelExchange",
    "Verif.Importer.C73_violated_setUp",
    "Verif.Importer.C73_violated_leak"
   ],
   "note": "Proved for all histories and environments with a message function, except: FMI3SetShiftDecimal/FMI3SetShiftFraction (never loaded: NULL is called, C73_violated_shift); with call logging four functions whose log format does not fit the arguments (C73_violated_debugLogging) and failing allocations; FMI3InstantiateModelExchange with missing functions or failing allocation, whose status is ignored (C73_violated_modelExchange, C73_violated_leak). The example programs call a NULL table if the library cannot be opened (C73_violated_setUp). C73_violated: the full statement is false."
  },
  {
   "property": "C74",
   "status": "partial",
   "theorems": [
    "Verif.Importer.C74_partial",
    "Verif.Importer.C74_violated_fmi3",
    "Verif.Importer.C74_violated_fmi2"
   ],
   "note": "FMI 3.0: the field never gets better, is always a status that was returned, and is the worst one if none of 14 functions is called (C74_partial). These 14, among them FMI3DoStep, never change it (C74_violated_fmi3), nor do the functions of FMI 2.0 (C74_violated_fmi2)."
  },
  {
   "property": "C75",
   "status": "partial",
   "theorems": [
    "Verif.FMI3.C75_partial",
    "Verif.FMI2.C75_partial",
    "Verif.FMI3.C75_violated_leak",
    "Verif.FMI3.C75_violated_message",
    "Verif.FMI3.C75_resource_lost",
    "Verif.FMI2.C75_violated_leak",
    "Verif.FMI2.C75_violated_message",
    "Verif.FMI2.C75_violated_load",
    "Verif.FMI2.C75_save_lost"
   ],
   "note": "Proved for every program and every allocator that does not run out of memory for the instance name and log messages (FMI 2.0: and deserialized FMU states); the other allocations may fail at any time. Otherwise the code violates the property (witnesses). The importer keeps each pointer in one variable and NULLs it when it frees the instance."
  },
  {
   "property": "C76",
   "status": "proved",
   "theorems": [
    "Verif.FMI3.C76",
    "Verif.FMI3.C76_start",
    "Verif.FMI3.C76_unit"
   ],
   "note": "Exact rational arithmetic (the C code computes in doubles). C76_start: an instance in which nothing was set reads the start values, so the hypothesis of C76 holds. C76_unit: closed form for unit matrices."
  },
  {
   "property": "C77",
   "status": "partial",
   "theorems": [
    "Verif.C77_partial",
    "Verif.C77_paced_partial",
    "Verif.C77_violated_end",
    "Verif.C77_violated_count"
   ],
   "note": "The full statement is false: the main program does not wait for its threads (C77_violated_end: use of the released instance), and threads share their argument, so inClock3 may tick five times or never (C77_violated_count). C77_partial: for every schedule up to the end of the loop no call is refused and the two periodic clocks are counted exactly; finishing when all threads have ended is safe. C77_paced_partial: if the threads of a second end before the next second, all three counters are those of C68. Calls of the FMU are atomic here (C39 interleaves inside them)."
  },
  {
   "property": "C78",
   "status": "partial",
   "theorems": [
    "Verif.FMI2.C78_partial_dahlquist",
    "Verif.FMI2.C78_partial_vanDerPol",
    "Verif.FMI2.C78_partial_bouncingBall",
    "Verif.FMI2.C78_violated_dahlquist",
    "Verif.FMI2.C78_violated_vanDerPol",
    "Verif.FMI2.C78_violated_bouncingBall",
    "Verif.FMI3.C78_partial_dahlquist",
    "Verif.FMI3.C78_partial_vanDerPol",
    "Verif.FMI3.C78_partial_bouncingBall",
    "Verif.FMI3.C78_violated_dahlquist",
    "Verif.FMI3.C78_violated_vanDerPol",
    "Verif.FMI3.C78_violated_bouncingBall",
    "Verif.FMI2.C78_violated",
    "Verif.FMI3.C78_violated",
    "Verif.FMI2.C78_partial_meant_dahlquist",
    "Verif.FMI2.C78_partial_meant_vanDerPol",
    "Verif.FMI2.C78_partial_meant_bouncingBall",
    "Verif.FMI2.C78_partial_same_dahlquist",
    "Verif.FMI2.C78_partial_same_vanDerPol",
    "Verif.FMI3.C78_partial_meant_dahlquist",
    "Verif.FMI3.C78_partial_meant_vanDerPol",
    "Verif.FMI3.C78_partial_meant_bouncingBall",
    "Verif.FMI3.C78_partial_same_dahlquist",
    "Verif.FMI3.C78_partial_same_vanDerPol",
    "Verif.FMI3.C78_violated_stateSpace",
    "Verif.FMI3.C65_stateSpace_rows",
    "Verif.FMI3.C78_stateSpace_three_partial"
   ],
   "note": "Exact arithmetic. Co-Simulation (C78_partial_*): the rows are exactly the solution, for every step size that is a multiple of the solver step and less than 99999 solver steps (beyond that the relative tolerance of the loop condition lets DoStep go one solver step too far). Model Exchange: false for the programs as they are built, because NX and NZ, which enable the integration, are defined nowhere: C78_violated_* prove for every step size and stop time that all rows show the start values; C78_violated: the two Dahlquist programs of the repository disagree at 0.1. If NX and NZ had the meant values (C78_partial_meant_*): the rows of Dahlquist and VanDerPol are exactly the solution, for every number of steps below 2^64 - 1, and equal to those of Co-Simulation (C78_partial_same_*); the rows of BouncingBall show the ball after the steps up to their time, or the ball at this time before it bounces. Missing: for BouncingBall with these macros, in which order the two kinds of rows come. StateSpace: the Co-Simulation program writes the Euler solution (C65_stateSpace_rows), the Model Exchange program as it is built writes (1, 2, 3) at all times (C78_violated_stateSpace); with NX = 3 it would write the Euler solution (C78_stateSpace_three_partial)."
  },
  {
   "property": "C79",
   "status": "partial",
   "theorems": [
    "Verif.FMI2.C79_instantiate",
    "Verif.FMI2.C79_directional",
    "Verif.FMI3.C79_modelExchange",
    "Verif.FMI3.C79_scheduledExecution",
    "Verif.FMI3.C79_coSimulation_partial",
    "Verif.FMI3.C79_violated_eventMode",
    "Verif.FMI3.C79_stepSize_partial",
    "Verif.FMI3.C79_violated_stepSize_roberts",
    "Verif.FMI3.C79_violated_stepSize_stateSpace",
    "Verif.FMI3.C79_derivatives_partial",
    "Verif.FMI3.C79_derivatives_stateSpace",
    "Verif.FMI3.C79_earlyReturn_partial",
    "Verif.FMI3.C79_violated_earlyReturn"
   ],
   "note": "The full statement is false: Roberts declares hasEventMode and refuses eventModeUsed, Roberts and StateSpace declare another fixedInternalStepSize than they use, and Stair returns early without declaring it. The partial theorems cover the other FMUs. StateSpace is a theorem of its own for derivatives. The attributes are transcribed by hand in Spec/Capabilities.lean. FMU states are C07 and C08, counts are C48, intermediate updates are C80."
  },
  {
   "property": "C80",
   "status": "proved",
   "theorems": [
    "Verif.FMI3.C80_session",
    "Verif.FMI3.C80_only",
    "Verif.FMI3.C80_without",
    "Verif.FMI3.C80_others",
    "Verif.FMI2.C80_fmi2"
   ],
   "note": "For every arithmetic. The answer of the callback (early return requested) is ignored by the code and is not part of the model; see the finding under C79."
  },
  {
   "property": "C81",
   "status": "partial",
   "theorems": [
    "Verif.FMI3.C81",
    "Verif.FMI2.C81_partial",
    "Verif.FMI2.C81_violated_discrete",
    "Verif.FMI3.C81_me",
    "Verif.FMI3.C81_me_rows",
    "Verif.FMI3.C81_violated_missed",
    "Verif.FMI2.C81_me_partial",
    "Verif.FMI2.C81_me_rows_partial"
   ],
   "note": "Proved over exact rational arithmetic with infinities. With FMI 2.0 the discrete floating point output stays 0 (C81_violated_discrete). In Model Exchange the claim holds for the step sizes that divide 0.5 (C81_me); C81_me_rows gives the rows for every step size, and with step sizes that miss the event times the discrete signals are lost (C81_violated_missed)."
  },
  {
   "property": "C82",
   "status": "proved",
   "theorems": [
    "Verif.FMI2.C82",
    "Verif.FMI2.C82_failed",
    "Verif.FMI2.C82_me",
    "Verif.FMI2.C82_me_failed",
    "Verif.FMI2.C82_me_inputs",
    "Verif.FMI2.C82_me_inputs_failed",
    "Verif.FMI3.C82",
    "Verif.FMI3.C82_failed",
    "Verif.FMI3.C82_me",
    "Verif.FMI3.C82_me_failed",
    "Verif.FMI3.C82_me_inputs",
    "Verif.FMI3.C82_me_inputs_failed",
    "Verif.FMI3.C82_stateSpace",
    "Verif.FMI3.C82_stateSpace_failed",
    "Verif.FMI3.C82_me_stateSpace",
    "Verif.FMI3.C82_me_stateSpace_failed"
   ],
   "note": "For every FMU model and every program. For Co-Simulation the sequence of calls is given exactly (Completed). For Model Exchange the theorem gives a history of successful calls that ends in the state in which the instance is terminated and in which the rows were recorded (Writes)."
  },
  {
   "property": "C83",
   "status": "partial",
   "theorems": [
    "Verif.C83_violated_string",
    "Verif.FMI2.C83",
    "Verif.FMI2.C83_me",
    "Verif.FMI2.C83_violated_feedthrough",
    "Verif.FMI3.C83",
    "Verif.FMI3.C83_me",
    "Verif.FMI3.C83_stateSpace",
    "Verif.FMI3.C83_me_stateSpace"
   ],
   "note": "Proved for the programs of BouncingBall, Dahlquist, VanDerPol, Stair, Resource and StateSpace. The program of Feedthrough violates it: the format for the string has an invalid conversion specification, so that every row it writes is undefined behaviour (C83_violated_string, C83_violated_feedthrough)."
  },
  {
   "property": "C84",
   "status": "partial",
   "theorems": [
    "Verif.FMI2.C84_partial",
    "Verif.FMI2.C84_me_partial",
    "Verif.FMI2.C84_violated_long",
    "Verif.FMI2.C84_violated_percent",
    "Verif.FMI3.C84_partial",
    "Verif.FMI3.C84_me_partial",
    "Verif.FMI3.C84_violated_long"
   ],
   "note": "Proved for all absolute paths of at most 4087 bytes without % (FMI 2.0) and at most 4089 bytes (FMI 3.0). Violated otherwise: resourceURI does not percent-encode the path, so that the FMU reads another file if it contains % (C84_violated_percent), and longer paths overrun the arrays of the program (C84_violated_long) or of the FMU (C54)."
  },
  {
   "property": "C85",
   "status": "partial",
   "theorems": [
    "Verif.Importer.CallLog.FMI2.C85_message_partial",
    "Verif.Importer.CallLog.FMI2.C85_partial",
    "Verif.Importer.CallLog.FMI2.C85_violated_debug",
    "Verif.Importer.CallLog.FMI3.C85_message_partial",
    "Verif.Importer.CallLog.FMI3.C85_partial",
    "Verif.Importer.CallLog.FMI3.C85_binary_partial",
    "Verif.Importer.CallLog.FMI3.C85_violated_debug",
    "Verif.Importer.CallLog.FMI3.C85_violated_number",
    "Verif.Importer.CallLog.FMI3.C85_violated_fraction",
    "Verif.Importer.CallLog.FMI3.C85_violated_name",
    "Verif.Importer.CallLog.FMI3.C85_violated_binary",
    "Verif.Importer.CallLog.FMI3.C85_violated_sizes"
   ],
   "note": "Proved for 43 of 44 functions of FMI 2.0 and 68 of 75 functions of FMI 3.0, all arguments and all sequences of calls whose texts do not fill the buffer exactly (C42). Violated for fmi2SetDebugLogging and fmi3SetDebugLogging (no arguments for two conversions), fmi3GetNumberOfEventIndicators, fmi3GetNumberOfContinuousStates and fmi3GetIntervalFraction (conversion of an integer gets a pointer), fmi3SerializeFMUState (wrong name of a parameter), fmi3GetBinary and fmi3SetBinary (right only if there are as many values as value references)."
  },
  {
   "property": "C86",
   "status": "partial",
   "theorems": [
    "Verif.FMI2.C86_partial",
    "Verif.FMI3.C86_partial",
    "Verif.FMI2.C86_violated",
    "Verif.FMI3.C86_violated"
   ],
   "note": "Proved for all pairs but Stair and VanDerPol, which have the same token and accept the model description of each other (C86_violated)."
  },
  {
   "property": "C87",
   "status": "partial",
   "theorems": [
    "Verif.Importer.ImportLibrary.C87_shared_partial",
    "Verif.Importer.ImportLibrary.C87_static_partial",
    "Verif.Importer.ImportLibrary.C87_violated_open",
    "Verif.Importer.ImportLibrary.C87_violated_status"
   ],
   "note": "Shared library: the status is right, and on success everything is released; on failure the library stays open (C87_violated_open). Static library: the instance is released; the status is right if the value of a pointer survives free, which C does not promise (C87_violated_status)."
  },
  {
   "property": "C88",
   "status": "partial",
   "theorems": [
    "Verif.Importer.Messages.C88_fmi3",
    "Verif.Importer.Messages.C88_fmi2",
    "Verif.Importer.Messages.C88_fmi2_partial",
    "Verif.Importer.Messages.C88_category_fmi3",
    "Verif.Importer.Messages.C88_category_fmi2_partial",
    "Verif.Importer.Messages.C88_console",
    "Verif.Importer.Messages.C88_violated_percent",
    "Verif.Importer.Messages.C88_violated_changed",
    "Verif.Importer.Messages.C88_violated_long",
    "Verif.Importer.Messages.C88_violated_memory"
   ],
   "note": "FMI 3.0: proved for every message, if there is memory for it. FMI 2.0: the importer library uses the finished text as a format and cuts it off at 4095 characters; C88_fmi2 says exactly what arrives, and C88_fmi2_partial that all messages of the Reference FMUs arrive unchanged if the strings in them contain no percent sign and the text is short enough."
  },
  {
   "property": "C89",
   "status": "proved",
   "theorems": [
    "Verif.FMI3.C89_held",
    "Verif.FMI3.C89_determined"
   ],
   "note": "For calls that do not interrupt each other; C39 and C77 are about preemption. outClock is the subject of C38 and C62."
  },
  {
   "property": "C90",
   "status": "partial",
   "theorems": [
    "Verif.Lint.C90_repaired",
    "Verif.Lint.C90_selected",
    "Verif.Lint.C90_accepts_partial",
    "Verif.Lint.C90_script_partial",
    "Verif.Lint.C90_violated_return",
    "Verif.Lint.C90_violated_last",
    "Verif.Lint.C90_violated_alarm",
    "Verif.Lint.C90_violated_status"
   ],
   "note": "C90_repaired holds without restrictions. C90_accepts_partial is about files with line feeds as line ends, also at the end of the last line; C90_script_partial about less than 256 characters that are not ASCII. The other cases fail: carriage returns and a space at the end of an unterminated last line are not found, and with 256 problems the exit status is 0. Files that are not UTF-8, other encodings and Windows are not modelled."
  },
  {
   "property": "C91",
   "status": "partial",
   "theorems": [
    "Verif.Merge.C91_binaries",
    "Verif.Merge.C91_files",
    "Verif.Merge.C91_version_partial",
    "Verif.Merge.C91_documentation",
    "Verif.Merge.C91_script",
    "Verif.Merge.C91_release",
    "Verif.Merge.C91_violated_version",
    "Verif.Merge.C91_violated_tags"
   ],
   "note": "Libraries, other files, documentation and the set of merged FMUs: proved; C91_release: with the FMUs that build.py and CMakeLists.txt produce the script does not fail and the release is complete. The version: proved for the seven FMUs with a plot and a commit with at most one tag; Clocks and Roberts keep the words \"development build\" (C91_violated_version), several tags are all written, with line ends between them (C91_violated_tags). Exceptions of git, archives in which a file has the name of a directory and renamed entries are not modelled."
  },
  {
   "property": "C92",
   "status": "partial",
   "theorems": [
    "Verif.FMI2.C92_fmi2",
    "Verif.FMI2.C92_just_before",
    "Verif.FMI3.C92_fmi3_partial",
    "Verif.FMI3.C92_violated_end",
    "Verif.FMI2.C92_violated_me",
    "Verif.FMI3.C92_violated_me",
    "Verif.FMI2.C92_violated_step",
    "Verif.FMI3.C92_violated_step",
    "Verif.FMI2.C92_me_partial",
    "Verif.FMI3.C92_me_partial",
    "Verif.FMI2.C92_violated_fraction",
    "Verif.FMI3.C92_violated_fraction"
   ],
   "note": "FMI 2.0: proved. FMI 3.0: the rows before the end are proved; the program leaves its loop before it records the last stair, so that no row ever shows the counter 10 (C92_violated_end). Exact arithmetic. No communication point may lie so little before a whole second that the FMU takes both to be equal (ApartFromSeconds; needed: C92_just_before; apart_of gives the condition for all multiples of the d-th part of a second, d at most 10000, up to 10000 parts). Model Exchange: the claim is refuted. For every step size, stop time and arithmetic no row shows the last stair (C92_violated_me), and if the steps miss the first time event, which they do for every step size of which 1 is not a multiple up to the tolerance, the counter stays 1 for ever (C92_violated_step, any arithmetic; missed_of gives the condition for exact arithmetic, e.g. for the step size 0.7). If a second takes a whole number of steps, the exact rows are given: one for every step and a second one after every event, up to 9 seconds (C92_me_partial, exact arithmetic). For all other step sizes that are fractions of a second with a denominator below 50000 the counter stays 1 (C92_violated_fraction); step sizes with larger denominators may come close enough to an event for it to be taken, which is not characterised."
  }
 ]
}
