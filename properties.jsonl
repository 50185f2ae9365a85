{"id": "C01", "title": "FMI 2: a call that the current mode does not allow is refused and changes nothing but the mode", "statement": "If an fmi2 function is called while the instance is in a mode in which the FMI 2.0 call table of this implementation does not allow it, the call returns fmi2Error, the instance is afterwards in the Terminated mode, and no variable, no time, no communication point, no event flag and no saved state changes; at most one error message reaches the logger.", "quantifier": "every FMU, every instance state, every fmi2 function with a mode check, every argument value", "why_tests_cant": "The statement ranges over all instance contents and all arguments of some forty functions; tests only sample a few call orders.", "anchors": ["src/fmi2Functions.c: BEGIN_FUNCTION, allowedState, CALL, MASK_fmi2*"]}
{"id": "C02", "title": "FMI 3: a call that the current mode does not allow is refused and changes nothing but the mode", "statement": "If an fmi3 function is called in a mode its mask does not include, it returns fmi3Error, the instance is afterwards in the Terminated mode, and nothing else about the instance changes apart from at most one logged error.", "quantifier": "every FMU, every instance state, every fmi3 function with a mode check, every argument value", "why_tests_cant": "All contents and all arguments of some fifty functions; tests sample a few.", "anchors": ["src/fmi3Functions.c: BEGIN_FUNCTION, allowedState, CALL, MASK_fmi3*"]}
{"id": "C03", "title": "FMI 2: the two interface types never mix", "statement": "During the whole life of an FMI 2.0 instance created for Model Exchange, fmi2DoStep never returns anything but fmi2Error; during the life of one created for Co-Simulation, fmi2EnterEventMode, fmi2NewDiscreteStates, fmi2EnterContinuousTimeMode, fmi2CompletedIntegratorStep, fmi2SetTime and fmi2SetContinuousStates never return anything but fmi2Error. This includes histories with Reset and with restoring FMU states the instance itself saved.", "quantifier": "every FMU, every finite sequence of API calls with every argument", "why_tests_cant": "A reachability statement over unbounded call histories.", "anchors": ["src/fmi2Functions.c: fmi2ExitInitializationMode, fmi2DoStep, fmi2SetTime, fmi2SetFMUstate"]}
{"id": "C04", "title": "FMI 2: asynchronous stepping never appears", "statement": "In no history does an FMI 2.0 instance enter a pending, failed or cancelled step; consequently fmi2CancelStep, fmi2SetRealInputDerivatives, fmi2GetStatus, fmi2GetIntegerStatus and fmi2GetStringStatus never return fmi2OK and no call ever returns fmi2Pending, fmi2Warning or fmi2Fatal.", "quantifier": "every FMU, every finite sequence of API calls with every argument", "why_tests_cant": "Absence of a state over all histories.", "anchors": ["src/fmi2Functions.c: fmi2DoStep, fmi2CancelStep, getStatus", "include/model.h: ModelState"]}
{"id": "C05", "title": "FMI 2: an error is sticky until reset or restore", "statement": "Once a mode-checked call has returned fmi2Error, every later call that would change the simulation (setting variables, time or states, changing mode, stepping, setting up the experiment) returns fmi2Error and leaves all variables as they are, until fmi2Reset or fmi2SetFMUstate is called. Getters keep working.", "quantifier": "every FMU, every history leading to the error, every continuation without Reset/SetFMUstate", "why_tests_cant": "Unbounded histories before and after the failure.", "anchors": ["src/fmi2Functions.c: CALL, ASSERT_NOT_NULL, MASK_fmi2*"]}
{"id": "C06", "title": "FMI 3: an error is sticky for modes and stepping until reset or restore", "statement": "Once a mode-checked fmi3 call has returned fmi3Error the instance stays in the Terminated mode, and every mode change, fmi3DoStep, fmi3SetTime, fmi3SetContinuousStates and fmi3ActivateModelPartition returns fmi3Error, until fmi3Reset or fmi3SetFMUState is called.", "quantifier": "every FMU, every history leading to the error, every continuation without Reset/SetFMUState", "why_tests_cant": "Unbounded histories before and after the failure.", "anchors": ["src/fmi3Functions.c: CALL, ASSERT_NOT_NULL, MASK_fmi3*"]}
{"id": "C07", "title": "Saving and restoring an FMU state is transparent", "statement": "If an FMU state is obtained with fmiXGetFMUState, then arbitrary further calls are made on the instance, then the state is set again with fmiXSetFMUState, every later sequence of calls returns the same statuses and output values as it would have returned right after the save. (Only the two debug-logging switches are not part of the state.)", "quantifier": "every FMU, every instance, every call sequence between save and restore, every call sequence after the restore", "why_tests_cant": "Quantifies over two unbounded call sequences and equates whole futures.", "anchors": ["src/cosimulation.c: getFMUState, setFMUState", "src/fmi2Functions.c: fmi2GetFMUstate, fmi2SetFMUstate", "src/fmi3Functions.c: fmi3GetFMUState, fmi3SetFMUState"]}
{"id": "C08", "title": "Serialised FMU states round-trip and wrong sizes are rejected", "statement": "Serialising a saved FMU state with the size reported by the FMU and deserialising the bytes yields a state that restores the same behaviour as the original; with any other size both functions return an error, terminate the instance and write nothing.", "quantifier": "every FMU, every saved state, every size", "why_tests_cant": "All states and all sizes.", "anchors": ["src/fmi2Functions.c: fmi2SerializeFMUstate, fmi2DeSerializeFMUstate, fmi2SerializedFMUstateSize", "src/fmi3Functions.c: fmi3SerializeFMUState, fmi3DeserializeFMUState"]}
{"id": "C09", "title": "Reset gives back a fresh instance", "statement": "After fmiXReset an instance behaves, from its next initialisation on, like a newly instantiated one: the same call sequence returns the same statuses and values.", "quantifier": "every FMU, every history before the reset, every call sequence after it", "why_tests_cant": "Two unbounded histories; stale fields are only visible through particular combinations.", "anchors": ["src/cosimulation.c: reset, createModelInstance", "*/model.c: setStartValues"]}
{"id": "C10", "title": "Instantiation succeeds exactly for a named instance with the right token and a supported interface", "statement": "Instantiation returns an instance if and only if the name is present and non-empty, the token is present and equals the FMU's token, the interface type is offered (and for Co-Simulation event mode is only requested from FMUs with events), and (FMI 2.0) a logger callback was supplied; otherwise it returns NULL, and if a logger was given exactly one error message was logged whenever a name/token/event-mode check failed. A fresh instance is in mode Instantiated at time 0 with the start values.", "quantifier": "every FMU, every argument combination", "why_tests_cant": "All strings and callback combinations.", "anchors": ["src/cosimulation.c: createModelInstance", "src/fmi2Functions.c: fmi2Instantiate", "src/fmi3Functions.c: fmi3InstantiateModelExchange, fmi3InstantiateCoSimulation, fmi3InstantiateScheduledExecution"]}
{"id": "C11", "title": "Reading variables does not influence the simulation", "statement": "Inserting a successful read of variables (fmi2GetReal/Integer/Boolean/String, fmi3GetFloat64 etc., continuous states, derivatives, event indicators, nominals) anywhere in a call sequence does not change the status or outputs of any other call in the sequence.", "quantifier": "every FMU without a file-backed variable, every history, every position and every list of value references", "why_tests_cant": "Requires comparing all futures with and without the read.", "anchors": ["src/fmi2Functions.c: GET_VARIABLES", "src/fmi3Functions.c: GET_VARIABLES", "*/model.c: calculateValues, getFloat64"]}
{"id": "C12", "title": "A variable that was set is read back unchanged, and setting it does not disturb the others", "statement": "If setting a variable returns OK then reading the same value reference immediately afterwards (in a mode where reading is allowed) returns OK and the value just set, and every independent variable of the FMU other than the one set keeps its value.", "quantifier": "every FMU, every settable value reference, every value, every instance state in which the set succeeds", "why_tests_cant": "All values of all types and all instance states.", "anchors": ["*/model.c: getFloat64, setFloat64, getInt32, setInt32, ...", "src/fmi2Functions.c: SET_VARIABLES, GET_VARIABLES", "src/fmi3Functions.c: SET_VARIABLES, GET_VARIABLES"]}
{"id": "C13", "title": "Feedthrough: every output equals its input", "statement": "After any successful history, reading an output variable of the Feedthrough FMU returns the value most recently accepted for the corresponding input (or its start value if none was accepted since instantiation or reset), for all thirteen data types; strings of 128 bytes or more, binaries of more than 128 bytes and enumeration values other than 1 and 2 are refused and leave the old value.", "quantifier": "every call history, every data type, every value and length", "why_tests_cant": "Unbounded histories of writes with arbitrary contents.", "anchors": ["Feedthrough/model.c: calculateValues, setString, setBinary, setInt32, setInt64, setBoolean"]}
{"id": "C14", "title": "A vectored get or set is the same as the sequence of single gets or sets", "statement": "Calling a getter with a list of n scalar value references returns the same values and statuses as n calls with one reference each; calling a setter with n references and n values leaves the instance in the same state as n single-reference calls, as long as they succeed.", "quantifier": "every FMU, every list of references and values of any length, every instance state", "why_tests_cant": "Unbounded list lengths.", "anchors": ["src/fmi2Functions.c: GET_VARIABLES, SET_VARIABLES", "src/fmi3Functions.c: GET_VARIABLES, SET_VARIABLES"]}
{"id": "C15", "title": "FMI 3: a wrong number of values is always reported", "statement": "An fmi3 get or set call whose nValues is not the total number of elements of the referenced variables returns fmi3Error.", "quantifier": "every FMU, every data type except Binary reads, every reference list, every nValues", "why_tests_cant": "All list/size combinations.", "anchors": ["src/fmi3Functions.c: GET_VARIABLES, SET_VARIABLES", "include/model.h: ASSERT_NVALUES"]}
{"id": "C16", "title": "A failing vectored set applies exactly the references before the offending one", "statement": "If a vectored set of scalar variables returns an error because the k-th reference is refused, then the variables of references 1..k-1 have the new values, the k-th and later ones have their old values, and the instance is terminated.", "quantifier": "every FMU with scalar variables, every list of references and values, every failing position", "why_tests_cant": "Unbounded lists and failure positions.", "anchors": ["src/fmi2Functions.c: SET_VARIABLES", "src/fmi3Functions.c: SET_VARIABLES"]}
{"id": "C17", "title": "Values read are never stale", "statement": "Whenever a getter succeeds, the dependent variables it returns (derivatives, outputs, residuals) satisfy the FMU's defining equations for the current values of states, inputs and parameters as the getters would report them at that moment.", "quantifier": "every FMU, every history, every successful get", "why_tests_cant": "The caching flag must be right after every possible sequence of sets, steps, events and restores.", "anchors": ["src/fmi2Functions.c: GET_VARIABLES (isDirtyValues)", "src/fmi3Functions.c: GET_VARIABLES", "*/model.c: calculateValues"]}
{"id": "C18", "title": "Logging is fully controlled by the logging switches", "statement": "No error message is delivered while error logging is off, no event message while event logging is off, none at all without a logger callback; every delivered message has the category and status belonging to its switch; fmiXSetDebugLogging sets exactly the categories named, all of them when none is named, and reports an unknown category as an error.", "quantifier": "every FMU, every history", "why_tests_cant": "Absence of callbacks over all histories.", "anchors": ["src/cosimulation.c: setDebugLogging, logError, logEvent, logMessage"]}
{"id": "C19", "title": "Co-Simulation time lies exactly on the solver grid", "statement": "In Co-Simulation the time reported by the FMU is always startTime + n * solverStep, computed with a single multiplication from the number n of solver steps done since initialisation: rounding errors do not accumulate over steps.", "quantifier": "every FMU, every history of a Co-Simulation instance, every floating point arithmetic", "why_tests_cant": "A statement about all step counts.", "anchors": ["src/cosimulation.c: doFixedStep", "src/fmi2Functions.c: fmi2DoStep", "src/fmi3Functions.c: fmi3DoStep"]}
{"id": "C20", "title": "A successful DoStep reaches the requested communication point", "statement": "When DoStep succeeds without early return or termination, the FMU's time differs from the end of the communication step by at most one solver step plus the comparison tolerance (1e-5 absolute or relative), never lags by a full solver step, and the next DoStep is expected exactly at the requested end point.", "quantifier": "every FMU, every start time, communication point and step size", "why_tests_cant": "All real arguments and unbounded step counts.", "anchors": ["src/fmi2Functions.c: fmi2DoStep", "src/fmi3Functions.c: fmi3DoStep", "src/cosimulation.c: isClose"]}
{"id": "C21", "title": "The result does not depend on how the interval is cut into communication steps", "statement": "Covering an interval by any sequence of DoStep calls yields exactly the same final state as one DoStep over the whole interval, as long as no call terminates, returns early or reports an event to be handled by the importer.", "quantifier": "every FMU, every number of solver steps, every cutting into communication steps (also at points that are no multiples of the solver step)", "why_tests_cant": "All partitions of arbitrarily long intervals.", "anchors": ["src/fmi2Functions.c: fmi2DoStep", "src/fmi3Functions.c: fmi3DoStep", "src/cosimulation.c: doFixedStep"]}
{"id": "C22", "title": "The stop time is never exceeded", "statement": "If a stop time was defined, the FMU's Co-Simulation time never exceeds it by more than the comparison tolerance, whatever DoStep calls are made.", "quantifier": "every FMU, every stop time, every history of DoStep calls", "why_tests_cant": "All argument histories.", "anchors": ["src/fmi2Functions.c: fmi2DoStep", "src/fmi3Functions.c: fmi3DoStep"]}
{"id": "C23", "title": "A rejected DoStep does not advance the simulation", "statement": "If DoStep is called at a communication point that is not the expected one (outside the tolerance), with a step size that is not positive, or past the stop time, it returns an error, the instance is terminated, and neither time nor any variable has changed.", "quantifier": "every FMU, every instance state, every argument", "why_tests_cant": "All arguments and states.", "anchors": ["src/fmi2Functions.c: fmi2DoStep", "src/fmi3Functions.c: fmi3DoStep"]}
{"id": "C24", "title": "FMI 2: a step that ends the simulation is discarded and reported consistently", "statement": "fmi2DoStep returns fmi2Discard exactly when the FMU requested termination during the step; then fmi2GetBooleanStatus(fmi2Terminated) returns true and fmi2GetRealStatus(fmi2LastSuccessfulTime) returns the time that GetReal reports for the time variable; the expected communication point is unchanged.", "quantifier": "every FMU, every instance state, every argument", "why_tests_cant": "All states and steps at which termination can occur.", "anchors": ["src/fmi2Functions.c: fmi2DoStep, fmi2GetBooleanStatus, fmi2GetRealStatus"]}
{"id": "C25", "title": "FMI 3: the results of DoStep are mutually consistent", "statement": "When fmi3DoStep returns OK: earlyReturn implies that early return was allowed at instantiation; eventHandlingNeeded implies that event mode was requested; lastSuccessfulTime is the time GetFloat64 then reports; terminateSimulation is what UpdateDiscreteStates last determined; the communication point accepted next is the requested end point if the step was completed and lastSuccessfulTime otherwise.", "quantifier": "every FMU, every instance state, every argument", "why_tests_cant": "All combinations of flags and event times.", "anchors": ["src/fmi3Functions.c: fmi3DoStep, fmi3InstantiateCoSimulation"]}
{"id": "C26", "title": "DoStep always returns", "statement": "Every call of DoStep returns after finitely many solver steps.", "quantifier": "every FMU, every instance state, every floating point argument including infinities and NaN", "why_tests_cant": "Termination for all arguments; a test cannot observe non-termination.", "anchors": ["src/fmi2Functions.c: fmi2DoStep", "src/fmi3Functions.c: fmi3DoStep"]}
{"id": "C27", "title": "Model Exchange with a forward Euler importer reproduces Co-Simulation", "statement": "Running an FMU through the Model Exchange functions with the forward Euler algorithm of the example importers and the FMU's own solver step gives, after every number of steps without events, the same state values as running it through DoStep.", "quantifier": "every FMU with continuous states, every number of steps, every start value and parameter", "why_tests_cant": "Unbounded number of steps, all parameters.", "anchors": ["examples/simulate_fmi2_me.c", "examples/simulate_fmi3_me.c", "src/cosimulation.c: doFixedStep"]}
{"id": "C28", "title": "The FMI 2.0 and FMI 3.0 builds of a model compute the same Co-Simulation trajectory", "statement": "For the same start time, parameters and communication steps, the FMI 2.0 and the FMI 3.0 build (without event mode and early return) of an FMU return the same variable values after every step.", "quantifier": "every FMU available in both versions, every communication schedule", "why_tests_cant": "Unbounded schedules and all parameters; event bookkeeping differs between the versions.", "anchors": ["src/fmi2Functions.c: fmi2DoStep", "src/fmi3Functions.c: fmi3DoStep"]}
{"id": "C29", "title": "Zero crossings are detected exactly once when an indicator changes its domain", "statement": "A solver step reports a state event if and only if some event indicator moved between the domains z > 0 and z <= 0 since the previous evaluation, and an indicator that stays in its domain never causes an event again.", "quantifier": "every FMU with event indicators, every state", "why_tests_cant": "All indicator vectors and histories.", "anchors": ["src/cosimulation.c: doFixedStep"]}
{"id": "C30", "title": "Dahlquist: Co-Simulation computes the explicit Euler solution", "statement": "After n solver steps the Dahlquist FMU reports x = (1 - k h)^n x_0 (in exact arithmetic), with h = 0.1, whatever the communication step sizes; for 0 <= k <= 20 the magnitude of x never grows.", "quantifier": "every x_0, every k, every number of steps, every communication schedule", "why_tests_cant": "Closed form for all step counts and real parameters.", "anchors": ["Dahlquist/model.c", "src/cosimulation.c: doFixedStep"]}
{"id": "C31", "title": "BouncingBall: a bounce reverses and damps the velocity, and a ball at rest stays at rest", "statement": "An event with the ball at or below the ground and falling sets the height to a positive value and the velocity to -e v, or stops the ball if that is less than v_min; an event at any other moment changes neither height nor velocity; once the ball has stopped it keeps its height and zero velocity in every later step, whatever the communication steps.", "quantifier": "every parameter and state, every number of steps", "why_tests_cant": "All reals and unbounded step counts.", "anchors": ["BouncingBall/model.c: eventUpdate, getDerivatives, getEventIndicators"]}
{"id": "C32", "title": "Stair: the counter follows the clock and stops at 10", "statement": "Started at time 0 with the default counter, after Co-Simulation up to time t < 9 the Stair FMU reports counter = 1 + floor(t); it never reports more than 10 after a successful call, and at t = 9 it ends the simulation.", "quantifier": "every communication schedule and every t", "why_tests_cant": "All schedules and unbounded histories.", "anchors": ["Stair/model.c: eventUpdate, setInt32", "src/fmi2Functions.c: fmi2DoStep"]}
{"id": "C33", "title": "VanDerPol: directional derivatives are the true derivatives", "statement": "The value returned by fmiXGetDirectionalDerivative for the state derivatives with respect to the states is the derivative of the FMU's right-hand side at the current state in the seed direction.", "quantifier": "every state, parameter and seed", "why_tests_cant": "A calculus identity over the reals.", "anchors": ["VanDerPol/model.c: calculateValues, getPartialDerivative", "src/fmi3Functions.c: fmi3GetDirectionalDerivative"]}
{"id": "C34", "title": "Directional and adjoint derivatives are linear and adjoint to each other", "statement": "Directional derivatives are additive and homogeneous in the seed, and for all seeds u, v the directional derivative J v and the adjoint derivative J^T u satisfy <u, J v> = <J^T u, v>.", "quantifier": "every FMU with derivatives, every list of unknowns and knowns, every seed (exact arithmetic)", "why_tests_cant": "All list lengths and seeds.", "anchors": ["src/fmi3Functions.c: fmi3GetDirectionalDerivative, fmi3GetAdjointDerivative", "src/fmi2Functions.c: fmi2GetDirectionalDerivative"]}
{"id": "C35", "title": "Roberts: mass is conserved in ODE mode and the reported derivatives are right", "statement": "In ODE mode the Roberts FMU always reports y1 + y2 + y3 = 1 and residual 0 (exact arithmetic); the directional derivatives it returns are the partial derivatives of the reported state derivatives.", "quantifier": "every state, every history", "why_tests_cant": "All states and histories, calculus over the reals.", "anchors": ["Roberts/model.c: calculateValues, getPartialDerivative"]}
{"id": "C36", "title": "StateSpace: dimensions can be configured up to 5 and never beyond", "statement": "In (re)configuration mode the dimensions m, n, r of the StateSpace FMU can be set to any value from 0 to 5 with fmi3SetUInt64; any larger value is refused; in no history do they exceed 5, so no access leaves the fixed-size arrays.", "quantifier": "every history, every value", "why_tests_cant": "Array bounds over all histories.", "anchors": ["StateSpace/model.c: setUInt64, calculateValues, setFloat64, getFloat64"]}
{"id": "C37", "title": "StateSpace: the reported values solve the state space equations", "statement": "The values reported by the StateSpace FMU satisfy der(x) = A x + B u and y = C x + D u for the matrices, inputs and states as reported by the getters, the matrices are read back as they were written, and x starts at x0.", "quantifier": "every dimension configuration, all matrices and vectors", "why_tests_cant": "All dimensions and real entries.", "anchors": ["StateSpace/model.c: calculateValues, setFloat64, getFloat64, setStartValues"]}
{"id": "C38", "title": "Clocks: tick counters are consistent and clocks are delivered once", "statement": "After any sequence of partition activations totalInClockTicks is the sum of the three clock counters, each counter is the number of activations of its clock; an output clock tick is delivered to exactly one fmi3GetClock call; a new countdown interval is reported as changed exactly once.", "quantifier": "every sequence of activations and reads", "why_tests_cant": "Unbounded histories.", "anchors": ["Clocks/model.c: activateModelPartition, getClock, getInterval"]}
{"id": "C39", "title": "Clocks: preemptive scheduling loses no tick when the importer's locks are provided", "statement": "With lockPreemption/unlockPreemption callbacks that disable preemption, any priority-driven interleaving of the three model partitions yields a total tick count equal to the sum of the three counters after all activations have finished.", "quantifier": "every interleaving allowed by the priorities, every number of activations", "why_tests_cant": "Schedules cannot be enumerated by tests.", "anchors": ["Clocks/model.c: activateModelPartition1, activateModelPartition2, activateModelPartition3", "examples/scs_threaded.c"]}
{"id": "C40", "title": "Resource: the resource location URI is decoded to the right file", "statement": "For an FMI 2.0 resource location of the form file:///path or file:/path with percent-encoded characters, the file opened by the Resource FMU is /y.txt below the decoded path; any other scheme is refused; the path buffer is never overrun.", "quantifier": "every URI string of every length", "why_tests_cant": "All strings and lengths.", "anchors": ["Resource/model.c: calculateValues"]}
{"id": "C41", "title": "Importer: FMIPathToURI produces a URI that decodes to the path", "statement": "For every path and buffer, FMIPathToURI either returns an error or writes a NUL-terminated file URI inside the buffer whose percent-decoding is the path.", "quantifier": "every path (bytes), every buffer size", "why_tests_cant": "All strings, bytes and buffer sizes.", "anchors": ["src/FMI.c: FMIPathToURI"]}
{"id": "C42", "title": "Importer: log messages of any size are assembled correctly", "statement": "Appending text and value arrays to the importer's log message buffer always returns, never writes outside the buffer and leaves the concatenation of everything appended, for every sequence of appends since the last clear.", "quantifier": "every sequence of appends, every text length, every array length", "why_tests_cant": "Buffer growth happens at every possible fill level.", "anchors": ["src/FMI.c: FMIAppendToLogMessageBuffer, FMIAppendArrayToLogMessageBuffer, FMIClearLogMessageBuffer"]}
{"id": "C43", "title": "Importer: FMI 2 wrapper knows the mode of the FMU", "statement": "After any sequence of calls through the FMI2* wrapper functions that all returned FMIOK, the mode recorded in the wrapper instance is the mode the FMU is in.", "quantifier": "every FMU, every call sequence", "why_tests_cant": "Unbounded histories of two state machines.", "anchors": ["src/FMI2.c", "src/fmi2Functions.c"]}
{"id": "C44", "title": "Importer: FMI 3 wrapper knows the mode of the FMU", "statement": "After any sequence of calls through the FMI3* wrapper functions that all returned FMIOK, the mode recorded in the wrapper instance is the mode the FMU is in.", "quantifier": "every FMU, every call sequence", "why_tests_cant": "Unbounded histories of two state machines.", "anchors": ["src/FMI3.c", "src/fmi3Functions.c"]}
{"id": "C45", "title": "No undefined behaviour for well-formed calls", "statement": "If every array argument has at least the length announced with it and required pointers are not NULL, no sequence of API calls on a live instance dereferences a NULL or out-of-bounds location or overflows a signed integer.", "quantifier": "every FMU, every history of well-formed calls", "why_tests_cant": "Memory safety over all histories.", "anchors": ["src/fmi2Functions.c", "src/fmi3Functions.c", "*/model.c"]}
{"id": "C46", "title": "FMI 3: handling events in Event Mode gives the same trajectory as internal event handling", "statement": "Simulating with event mode and early return (leaving Step Mode at every reported event, calling UpdateDiscreteStates once and continuing) yields the same variable values at every time point as simulating without event mode.", "quantifier": "every FMU with events, every schedule", "why_tests_cant": "Unbounded sequences of steps and events.", "anchors": ["src/fmi3Functions.c: fmi3DoStep, fmi3EnterEventMode, fmi3UpdateDiscreteStates, fmi3EnterStepMode"]}
{"id": "C47", "title": "The time comparison is symmetric, reflexive for numbers and monotone", "statement": "The comparison used for communication points is symmetric; a finite number is close to itself; numbers further apart than the tolerance are not close; closeness is inherited by numbers in between.", "quantifier": "all pairs of real numbers", "why_tests_cant": "All reals.", "anchors": ["src/cosimulation.c: isClose, fmiAbs, fmiMax"]}
{"id": "C48", "title": "Model Exchange states round-trip", "statement": "Setting the continuous states and reading them back returns the same vector, the number of states and event indicators reported by the FMU is the only vector length accepted, and the nominal values returned are positive.", "quantifier": "every FMU, every state vector, every length", "why_tests_cant": "All vectors and lengths.", "anchors": ["*/model.c: setContinuousStates, getContinuousStates, getNominalsOfContinuousStates", "src/cosimulation.c: default stubs"]}
{"id": "C49", "title": "Fixed parameters cannot change during a Model Exchange simulation", "statement": "In a Model Exchange instance a parameter declared fixed (Dahlquist k, Feedthrough Float64_fixed_parameter) keeps its value from the end of initialisation until Reset or restore of an FMU state, whatever calls are made.", "quantifier": "every call history", "why_tests_cant": "Invariance over unbounded histories.", "anchors": ["Dahlquist/model.c: setFloat64", "Feedthrough/model.c: setFloat64"]}
{"id": "C50", "title": "Event iteration converges after one update", "statement": "fmi2NewDiscreteStates and fmi3UpdateDiscreteStates never ask for another iteration, so the importer's event iteration loop ends after one call.", "quantifier": "every FMU, every history", "why_tests_cant": "A flag that must stay false over all histories.", "anchors": ["src/fmi2Functions.c: fmi2NewDiscreteStates", "src/fmi3Functions.c: fmi3UpdateDiscreteStates", "*/model.c: eventUpdate"]}
{"id": "C51", "title": "Co-Simulation time never runs backwards", "statement": "In Co-Simulation the reported time never decreases between initialisation and Reset or restore of an FMU state.", "quantifier": "every FMU, every history, every monotone floating point arithmetic", "why_tests_cant": "Invariance over unbounded histories.", "anchors": ["src/cosimulation.c: doFixedStep"]}
{"id": "C52", "title": "Importer memory helpers", "statement": "FMICalloc and FMIRealloc return OK with a NULL pointer for a zero size, OK with usable memory of the requested size on success, and an error with the caller's pointer left intact when memory is exhausted; freeing through FMIFree leaves NULL so a second free is harmless.", "quantifier": "every allocation history, every pattern of allocation failures", "why_tests_cant": "All failure patterns of the allocator.", "anchors": ["src/FMI.c: FMICalloc, FMIRealloc, FMIFree"]}
{"id": "C53", "title": "Every accepted call moves the instance to the mode of the state machine", "statement": "After every call that does not fail the call was allowed in the old mode and the instance is in the mode that the FMI state machine prescribes (after restoring an FMU state: the mode saved in it); after every failing call it is terminated (FMI 3.0: except for functions the FMU does not offer, which leave the mode as it is). The interface type never changes.", "quantifier": "every FMU, every instance state, every API function, every argument", "why_tests_cant": "The property ranges over all pairs of mode and function and all instance states and arguments.", "anchors": ["src/fmi2Functions.c: all API functions", "src/fmi3Functions.c: all API functions", "include/model.h: ModelState"]}
{"id": "C54", "title": "Resource: the FMI 3.0 resource path is used as it is", "statement": "An FMI 3.0 Resource FMU instantiated with the resource path dir (with trailing separator) reports the first byte of the file dir + \"y.txt\", whatever calls precede the read; no path length leads to undefined behaviour.", "quantifier": "every resource path, file system, interface type and history of calls", "why_tests_cant": "All path lengths, including those at the size of the internal buffer.", "anchors": ["Resource/model.c: calculateValues, getInt32", "src/fmi3Functions.c: fmi3Instantiate*"]}
{"id": "C55", "title": "Importer and Resource FMU agree on the resource location", "statement": "If FMIPathToURI succeeds for the absolute path of the resources directory and its result is passed to fmi2Instantiate, the Resource FMU reads the file y.txt in exactly that directory.", "quantifier": "every absolute path, buffer, file system and history of calls", "why_tests_cant": "All paths; encoder and decoder are in different programs.", "anchors": ["src/FMI.c: FMIPathToURI", "Resource/model.c: calculateValues"]}
{"id": "C56", "title": "Parameters and inputs keep the value most recently set", "statement": "After any successful history a parameter or input reads as the value most recently set for it since instantiation, reset or the restoration of an FMU state, and otherwise as its start value or the value it had when the restored FMU state was saved; nothing else changes it.", "quantifier": "every FMU with parameters or inputs (except those the FMU itself changes: g of BouncingBall, input2 of Clocks; array parameters of StateSpace are not covered), every history of successful calls", "why_tests_cant": "A test checks a few histories; the claim is about every order of sets, resets, steps, events, saves and restores, including vectored sets that list a variable twice.", "anchors": ["src/fmi2Functions.c: fmi2SetReal, fmi2SetFMUstate, fmi2Reset", "src/fmi3Functions.c: fmi3SetFloat64, fmi3SetFMUState", "Feedthrough/model.c: setFloat64", "Dahlquist/model.c: setFloat64", "src/cosimulation.c: doFixedStep"]}
{"id": "C57", "title": "BouncingBall follows the explicit Euler trajectory with bounces", "statement": "Once initialised, a BouncingBall instance on which nothing is set reports, n solver steps later, at time = start + n/1000, exactly the height and velocity of the n-th step of the explicit Euler method with the bounce rule applied after every downward crossing, whatever the communication step sizes and whether or not Event Mode and early return are used, provided the importer handles every event reported to it. A ball that starts above the ground and is not accelerated upwards is always reported above the ground.", "quantifier": "every initial height, velocity, gravity and restitution coefficient, every communication schedule, every interleaving with reads, debug logging and other calls that set nothing; FMI 2.0 and FMI 3.0, with and without Event Mode and early return; exact arithmetic", "why_tests_cant": "A test runs one schedule for one set of start values; the claim is about all schedules, the number of bounces is unbounded, and the bounce can coincide with any communication point.", "anchors": ["BouncingBall/model.c: eventUpdate, getEventIndicators, calculateValues", "src/cosimulation.c: doFixedStep", "src/fmi2Functions.c: fmi2DoStep", "src/fmi3Functions.c: fmi3DoStep, fmi3UpdateDiscreteStates"]}
{"id": "C58", "title": "BouncingBall: output derivatives are the values of the derivative variables", "statement": "In Co-Simulation, fmi2GetRealOutputDerivatives / fmi3GetOutputDerivatives of BouncingBall succeed exactly for order 1 and the outputs h and v, and return the values the getters report for der(h) and der(v) at the same moment; every other FMU refuses the call.", "quantifier": "every instance state in which the call is allowed, every list of value references and orders", "why_tests_cant": "The list of requests and the simulation state are unbounded; tests read one output at one time.", "anchors": ["src/fmi2Functions.c: fmi2GetRealOutputDerivatives", "src/fmi3Functions.c: fmi3GetOutputDerivatives", "BouncingBall/model.c: getOutputDerivative"]}
{"id": "C59", "title": "Nominal values and event information can be trusted", "statement": "fmi2/fmi3GetNominalsOfContinuousStates return exactly the nominal values the model description declares. A successful fmi2NewDiscreteStates / fmi3UpdateDiscreteStates never announces changed nominals; when it does not announce changed continuous states, the importer reads the same states as before. No FMU but Stair announces a time event or asks to end the simulation. Stair always announces a time event (the first at time 1) and keeps to it: an update at the announced time increases the counter by one and announces the next event one time unit later, any other update leaves the counter and the announcement, and it asks to end the simulation exactly when the counter is 10. The end of an integrator step never demands an event.", "quantifier": "every reachable instance, every buffer, every sequence of calls between two updates that does not step, update, restore or reset", "why_tests_cant": "The announcement must survive every sequence of calls in between, and the states must be the same for every reachable instance; tests follow one trajectory.", "anchors": ["src/fmi2Functions.c: fmi2NewDiscreteStates, fmi2CompletedIntegratorStep, fmi2GetNominalsOfContinuousStates", "src/fmi3Functions.c: fmi3UpdateDiscreteStates, fmi3CompletedIntegratorStep, fmi3GetNominalsOfContinuousStates", "Stair/model.c: eventUpdate", "BouncingBall/model.c: eventUpdate", "Roberts/model.c: getNominalsOfContinuousStates"]}
{"id": "C60", "title": "VanDerPol and Roberts compute the explicit Euler solution", "statement": "Once initialised, a VanDerPol or Roberts instance in Co-Simulation on which nothing is set reports, after any calls, time = start + n*h and exactly the n-th iterate of the explicit Euler method of its equations for one natural number n (h = 0.01 and 1e-6), whatever the communication steps were. The concentrations of Roberts stay physical: never negative, sum one.", "quantifier": "every initial state and parameter, every communication schedule, every interleaving with calls that set nothing; VanDerPol in FMI 2.0 and 3.0, Roberts in FMI 3.0; exact arithmetic; fewer than 2^64 solver steps", "why_tests_cant": "The number of solver steps and the partition into communication steps are unbounded; a test compares one trajectory with a reference file.", "anchors": ["src/cosimulation.c: doFixedStep", "VanDerPol/model.c: calculateValues, getDerivatives", "Roberts/model.c: calculateValues, getDerivatives", "src/fmi2Functions.c: fmi2DoStep", "src/fmi3Functions.c: fmi3DoStep"]}
{"id": "C61", "title": "A call succeeds exactly if it is legal", "statement": "An API call that returns, returns OK exactly if the function is allowed in the current mode and its arguments agree with the model description: the variables exist and have the type of the function, they may be set in this mode to these values, the numbers of values, states and event indicators are right, required pointers are not NULL and the capability is provided. Nothing else the importer has done before, and no value it has set, can make a legal call fail or an illegal call pass. A communication step from the expected communication point, with a positive size and within the stop time, does not fail.", "quantifier": "every Reference FMU (FMI 3.0: except StateSpace), every function, every state of the instance, all arguments, any arithmetic (DoStep: exact arithmetic and every history without SetFMUState)", "why_tests_cant": "The claim is an equivalence over all functions, modes, argument lists of any length and internal states; tests try a few legal and illegal calls in a few states.", "anchors": ["src/fmi2Functions.c: all functions", "src/fmi3Functions.c: all functions", "src/cosimulation.c: setDebugLogging, configurate, doFixedStep", "*/model.c: getFloat64, setFloat64, getContinuousStates, eventUpdate, getPartialDerivative, getOutputDerivative, activateModelPartition", "*/FMI2.xml, */FMI3.xml"]}
{"id": "C62", "title": "Scheduled Execution: which callbacks an activation invokes", "statement": "An activation of a model partition of Clocks announces its result with exactly the callbacks that belong to it: clockUpdate is called if and only if there is something new to fetch (an output clock that fmi3GetClock reports as ticked, or for inClock1 an interval of the countdown clock that fmi3GetIntervalDecimal reports as changed), and lockPreemption and unlockPreemption are called, each at most once and only if the importer has provided it, in this order around the partition that protects shared data. No other call of any FMU calls clockUpdate, lockPreemption or unlockPreemption. In every history lock and unlock alternate, so that preemption is never left locked.", "quantifier": "every FMI 3.0 Reference FMU, every history of calls, all arguments, every choice of callbacks that are provided", "why_tests_cant": "Locking must be balanced in every history, and the announcement must agree with what is fetched afterwards for any number of earlier activations.", "anchors": ["Clocks/model.c: activateModelPartition, activateClock", "src/fmi3Functions.c: fmi3ActivateModelPartition, fmi3InstantiateScheduledExecution"]}
{"id": "C63", "title": "The example importers for Model Exchange treat every FMU correctly", "statement": "Whatever the FMU answers, the Model Exchange importers only call functions that the standard allows at that point: in Event Mode they update the discrete states until the FMU needs no further update and only then enter Continuous-Time Mode; they set the states x + h*der(x) computed from the states and derivatives that the FMU reported last, reading states and nominal values again after the FMU said that they changed; every step is reported as completed after the event indicators were read, and recorded; the k-th step ends at k*h and no step begins at or after the stop time; no time, state or step event is passed over: before the time advances again Event Mode is entered. After a failed call or a request to terminate there are no further calls (other than recording the values). They stop only for one of these reasons or at the stop time.", "quantifier": "every FMU as an arbitrary function from the dialogue so far to the next answer, all numbers of states and event indicators, all step sizes and stop times, any number of steps, any arithmetic", "why_tests_cant": "The claim is about all possible reactions of an FMU; the tests run the importers against a few well-behaved FMUs.", "anchors": ["examples/simulate_fmi2_me.c: main", "examples/simulate_fmi3_me.c: main", "examples/util.h: CALL"]}
{"id": "C64", "title": "Every legal call returns, with OK", "statement": "In every Reference FMU, after any history of calls, a call that is allowed in the current mode and whose arguments are as the model description and the standard require returns, and it returns OK: it does not run forever, execute undefined behaviour or fail. For DoStep: a step that starts at the expected communication point, has a positive size and ends at or before the stop time returns OK (in FMI 2.0: or Discard, if the FMU requests termination).", "quantifier": "all Reference FMUs, both FMI versions, all interface types, all histories, all calls with legal arguments", "why_tests_cant": "There are infinitely many histories and arguments; a test shows that some legal calls succeed, not that no legal call hangs, crashes or is refused.", "anchors": ["src/fmi2Functions.c", "src/fmi3Functions.c", "src/cosimulation.c: doFixedStep", "include/model.h: the state masks", "*/model.c"]}
{"id": "C65", "title": "The Co-Simulation programs run the FMUs to completion", "statement": "The example programs simulate_fmi2_cs and simulate_fmi3_cs, given the start values, inputs and recorded variables of a Reference FMU and a stop time that is a multiple of the communication step size, end with the status OK: every API call they make returns OK, they record the variables at 0, h, 2h, ... up to the stop time, or up to the step in which the FMU asks to end the simulation, and they terminate the instance properly. If the stop time is not a multiple of the step size, the last step is refused and the program fails.", "quantifier": "all Reference FMUs, all lists of start values, inputs (at every time) and recorded variables that are legal for the FMU, all step sizes h > 0 and all numbers N of steps, all resource locations", "why_tests_cant": "A test runs the programs with the constants of config.h only; the number of steps, the inputs as functions of time and the recorded variables are unbounded.", "anchors": ["examples/simulate_fmi2_cs.c: main", "examples/simulate_fmi3_cs.c: main", "examples/util.h: CALL, tearDown", "examples/BouncingBall.c, Dahlquist.c, Feedthrough.c, Resource.c, StateSpace.c, Stair.c, VanDerPol.c: applyStartValues, applyContinuousInputs, applyDiscreteInputs, recordVariables"]}
{"id": "C66", "title": "The Model Exchange programs run the FMUs to completion", "statement": "The example programs simulate_fmi2_me and simulate_fmi3_me, given start values and inputs that may be set and recorded variables that the Reference FMU declares, end with the status OK: every API call they make returns OK, every event iteration ends, and the simulation ends at the first of the times 0, h, 2h, ... at or after the stop time, or earlier if the FMU asks for it (only Stair does). They record the variables at all of these times in order: one row for each, and a second one for the values after an event. FMUs without event indicators and time events get exactly one row for each time, and a second one for exactly those times at which an input changes. The stop time need not be a multiple of the step size.", "quantifier": "all Reference FMUs for Model Exchange, all legal start values and inputs (as functions of the time), all times of input events, all lists of recorded variables that the FMU declares, all step sizes and all numbers of steps below 2^64, all resource locations, any arithmetic", "why_tests_cant": "A test runs the programs with the constants of config.h only, and cannot show that no event iteration goes on for ever or that no call is ever refused for other step sizes, stop times and recorded variables.", "anchors": ["examples/simulate_fmi2_me.c: main", "examples/simulate_fmi3_me.c: main", "examples/util.h: CALL, tearDown", "examples/BouncingBall.c, Dahlquist.c, Feedthrough.c, Resource.c, Stair.c, VanDerPol.c: applyStartValues, applyContinuousInputs, applyDiscreteInputs, nextInputEventTime, recordVariables"]}
{"id": "C67", "title": "The programs with early return and Event Mode run the FMUs to completion", "statement": "The example programs cs_early_return, cs_event_mode and cs_intermediate_update, given start values, inputs and recorded variables that the Reference FMU declares and a communication step size that is a multiple of the solver step size, end with the status OK: every API call they make returns OK and the loops end. Rows are recorded for non-decreasing times beginning with 0; each step advances by at least one solver step, at most to the requested time (up to the tolerance), and ends earlier only for FMUs with events. In Event Mode there are two rows for the time of an event. The simulation ends when the next step would lead beyond the stop time, or earlier if the FMU asks for it (only Stair does).", "quantifier": "all Reference FMUs that can be instantiated this way, all start values, inputs and recorded variables that are legal in the respective mode, all step sizes that are multiples of the solver step size, all stop times", "why_tests_cant": "A test runs the programs for one FMU and the constants of config.h; it cannot show that after every early return, at whatever solver step an event occurs, the next step from there is accepted, and that the loops end.", "anchors": ["examples/cs_early_return.c: main", "examples/cs_event_mode.c: main", "examples/cs_intermediate_update.c: main", "src/fmi3Functions.c: fmi3DoStep, fmi3EnterEventMode, fmi3EnterStepMode, fmi3UpdateDiscreteStates"]}
{"id": "C68", "title": "The program for Scheduled Execution follows the schedule", "statement": "The example program scs_synchronous, run with the Clocks FMU for any number of seconds, ends with the status OK, and the row it writes for every second holds the exact numbers of clock ticks so far: inClock1 ticked in every second, inClock2 in the seconds 0, 1, 8, 9, 16, 17, ..., the countdown clock inClock3, which the FMU announces by the clockUpdate callback, once in the second 4; the total is their sum.", "quantifier": "all numbers of seconds for which the 32 bit tick counters cannot overflow", "why_tests_cant": "A test runs ten seconds; which callbacks occur depends on the total number of ticks modulo 5 and on the state of outClock, so every second is different.", "anchors": ["examples/scs_synchronous.c: main, cb_clockUpdate", "examples/Clocks.c: recordVariables", "Clocks/model.c: activateModelPartition, getInterval, getClock, getInt32", "src/fmi3Functions.c: fmi3ActivateModelPartition, fmi3GetIntervalDecimal, fmi3GetClock"]}
{"id": "C69", "title": "The FMUs start with the values that their model descriptions declare", "statement": "In an instance in which nothing was set and that has not been simulated since it was created or successfully reset, reading a variable whose start value is declared in the model description (variables with initial exact, parameters, inputs and constants) succeeds and gives that value, in every mode in which reading is allowed.", "quantifier": "all Reference FMUs with start values, all instance kinds and instantiation arguments, all histories before a Reset, all sequences of calls afterwards that set nothing and do not simulate, any arithmetic", "why_tests_cant": "The values are read after any history that ends in a Reset and between any calls that should not change them; a test reads them from one new instance.", "anchors": ["BouncingBall/FMI2.xml, BouncingBall/FMI3.xml and those of the other FMUs: ModelVariables", "*/model.c: setStartValues", "src/cosimulation.c: createModelInstance, reset", "src/fmi2Functions.c: fmi2Reset", "src/fmi3Functions.c: fmi3Reset"]}
{"id": "C70", "title": "The dependencies that the model descriptions declare are complete", "statement": "Two instances of an FMU that report the same values for the declared dependencies of a derivative or output (and, after the initialisation, for the parameters) report the same value for that unknown, whatever other variables, times, modes or histories they have. Where the model description declares constant factors, the unknown is a fixed linear combination of its dependencies.", "quantifier": "all FMUs that declare dependencies, all derivatives, outputs and initial unknowns with a dependency list, all pairs of instances in any modes in which reading is allowed, any arithmetic (constant factors: exact arithmetic)", "why_tests_cant": "Independence of all other variables quantifies over all their values in two instances; tests compare the results of a few settings.", "anchors": ["BouncingBall/FMI2.xml, BouncingBall/FMI3.xml and those of Dahlquist, Feedthrough, VanDerPol, Roberts: ModelStructure", "Roberts/fmi-ls-dae.xml", "*/model.c: calculateValues, getFloat64"]}
{"id": "C71", "title": "Importer: FMIPlatformBinaryPath gives the path of the binary of the FMU", "statement": "For the directory of an unpacked FMU and its model identifier, FMIPlatformBinaryPath stores the NUL-terminated path binaries/<platform>/<modelIdentifier>.<extension> in that directory and returns OK if there is room for it, and otherwise returns an error; it never writes outside the given buffer.", "quantifier": "all systems and architectures the importer supports, all major versions, directory names, identifiers, buffers and sizes", "why_tests_cant": "Directory names, identifiers and buffer sizes are unbounded, and each system and architecture is a separate build.", "anchors": ["src/FMI.c: FMIPlatformBinaryPath", "include/FMI.h: FMI_PLATFORM, FMI_PLATFORM_TUPLE, FMI_FILE_SEPARATOR, FMI_SHARED_LIBRARY_EXTENSION"]}
{"id": "C72", "title": "An importer gets the same Jacobian by columns and by rows", "statement": "Building the matrix of partial derivatives column by column with fmi3GetDirectionalDerivative, and then row by row with fmi3GetAdjointDerivative, succeeds and gives the same matrix; its entry for an unknown and a known is the directional derivative of this unknown with respect to this known, and for the states and derivatives of VanDerPol it is the derivative of the reported value. The example program jacobian ends with the status OK and its assertions hold, whatever its uninitialized arrays contain.", "quantifier": "all instances with finite values in the modes in which derivatives may be requested, all lists of unknowns and knowns (also repeated or unknown references), all contents of the arrays", "why_tests_cant": "The values of the states, the lists of references and the contents of uninitialized arrays are unbounded; the program checks one point with four entries.", "anchors": ["examples/jacobian.c: main", "src/fmi3Functions.c: fmi3GetDirectionalDerivative, fmi3GetAdjointDerivative", "VanDerPol/model.c: getPartialDerivative", "Roberts/model.c: getPartialDerivative"]}
{"id": "C73", "title": "An importer instance is safe to use and leaves nothing behind", "statement": "Take an importer instance created with FMICreateInstance. If the user loads a library, instantiates an FMU, calls functions of the FMU through the FMI2*/FMI3* wrapper functions and frees it, in this order and each only after the step before succeeded, no NULL or dangling pointer is used; every function of the FMI standard can be called, is called exactly once, and its status is returned. At any time FMIFreeInstance gives back all memory and closes the library, so that exactly the memory and libraries are in use as before the instance was created. The example programs (setUp, instantiation, calls, tearDown) end in the same way.", "quantifier": "All histories of proper use, all points at which the instance is freed, all results of the allocator, the dynamic loader and the FMU (which allocation fails, which library cannot be opened, which functions it lacks, whether it refuses the instantiation, all statuses), FMI 2.0 and FMI 3.0, Model Exchange, Co-Simulation and Scheduled Execution.", "why_tests_cant": "Failures of allocation or of loading, missing functions and their combinations with every point of the history cannot be enumerated by tests; a leak or a double free often has no visible effect.", "anchors": ["src/FMI.c: FMICreateInstance, FMILoadPlatformBinary, FMIFreeInstance", "src/FMI2.c: LOAD_SYMBOL, FMI2Instantiate, FMI2FreeInstance", "src/FMI3.c: LOAD_SYMBOL, loadSymbols3, FMI3InstantiateModelExchange, FMI3InstantiateCoSimulation, FMI3InstantiateScheduledExecution, FMI3FreeInstance", "examples/util.h: setUp, tearDown"]}
{"id": "C74", "title": "The field status of an importer instance is the worst status returned", "statement": "The field status of an importer instance is at any time the worst status that a function called through this instance has returned, or OK if there was none.", "quantifier": "All sequences of calls of wrapper functions, all statuses that the FMU returns, all states of the importer instance.", "why_tests_cant": "The order of the calls and the statuses are arbitrary; a function that forgets to update the field is only seen if it is the one that failed.", "anchors": ["src/FMI3.c: CALL, CALL_ARGS, CALL_ARRAY, FMI3DoStep, FMI3UpdateDiscreteStates", "src/FMI2.c: CALL", "include/FMI.h: FMIInstance"]}
{"id": "C75", "title": "The FMU neither leaks nor misuses memory", "statement": "For any number of instances of an FMU and any number of FMU states, created, used, saved, restored, serialized and freed in any order: every block of memory that the FMU has allocated is an instance or FMU state the importer still has a pointer to, or belongs to such an instance; no freed memory is used or freed again; a call on one instance changes no other instance and no FMU state except the one it is given; and when the importer has freed all instances and FMU states, no memory is left.", "quantifier": "every FMU, every program of instantiations, calls and frees on any number of instances and FMU states, every behaviour of the C library's allocator (addresses, failures)", "why_tests_cant": "leaks, double frees and aliasing between instances depend on the order of calls, on the addresses the allocator returns and on where it fails; a test sees one order and one allocator", "anchors": ["src/cosimulation.c:createModelInstance", "src/cosimulation.c:freeModelInstance", "src/cosimulation.c:s_reallocate", "src/cosimulation.c:getFMUState", "src/cosimulation.c:logMessage", "src/fmi2Functions.c:fmi2FreeFMUstate", "src/fmi2Functions.c:fmi2DeSerializeFMUstate", "src/fmi3Functions.c:fmi3FreeFMUState", "src/fmi3Functions.c:fmi3DeserializeFMUState"]}
{"id": "C76", "title": "StateSpace computes the explicit Euler solution of its linear system", "statement": "Once initialised, a StateSpace instance in Co-Simulation on which nothing is set reports, after any successful calls, time = start + n*h (h = 0.001) and the n-th iterate of the explicit Euler method for der(x) = A x + B u, with y = C x + D u, for one natural number n, whatever the communication steps were; matrices, inputs and the three dimensions stay as they were. For the start values the outputs are (1.001^n, 2*1.001^n, 3*1.001^n).", "quantifier": "all matrices, inputs and initial states, every communication schedule, every interleaving with calls that set nothing; exact arithmetic; fewer than 2^64 solver steps", "why_tests_cant": "The matrices, the number of solver steps and the partition into communication steps are unbounded; a test compares one trajectory for the start values.", "anchors": ["src/cosimulation.c: doFixedStep", "StateSpace/model.c: calculateValues, getContinuousStates, setContinuousStates, getDerivatives", "StateSpace/config.h: FIXED_SOLVER_STEP", "src/fmi3Functions.c: fmi3DoStep"]}
{"id": "C77", "title": "The threaded Scheduled Execution program counts every tick once", "statement": "Under every schedule of the main program and of the threads it starts, examples/scs_threaded.c gets fmi3OK from every call, never uses the FMU after releasing it, and when all threads have ended the tick counters of the Clocks FMU are those of its schedule (inClock1 every second, inClock2 in the seconds 0, 1, 8, 9, ..., inClock3 once after second 4), as in the sequential program of C68.", "quantifier": "all stop times and all interleavings of the main program and any number of threads (as long as the Int32 counters cannot overflow)", "why_tests_cant": "The number of interleavings is unbounded and a test run sees one of them, usually the one the sleeping times favour.", "anchors": ["examples/scs_threaded.c: main, cb_clockUpdate, setAndCheckInputClocks, checkOutputClocks, checkCountdownClocks, thr_activateModelPartition", "examples/util.h: tearDown", "Clocks/model.c: activateModelPartition"]}
{"id": "C78", "title": "The example programs write the numerical solution", "statement": "The simulation programs write one row for each time k h up to the stop time, and the row shows the values that the differential equations of the FMU, solved with the explicit Euler method of its documented step size (and with its documented events), have after the steps up to that time: 0.9^k for Dahlquist, the oscillator for VanDerPol, height and velocity of the ball for BouncingBall. This holds for the Co-Simulation and for the Model Exchange programs, which therefore write the same rows.", "quantifier": "all stop times and all communication step sizes that are multiples of the solver step, Dahlquist, VanDerPol and BouncingBall, FMI 2.0 and 3.0", "why_tests_cant": "The number of rows is unbounded and the values depend on the whole history; the repository compares runs with reference files only for Co-Simulation.", "anchors": ["examples/simulate_fmi2_cs.c", "examples/simulate_fmi3_cs.c", "examples/simulate_fmi2_me.c: NX, NZ", "examples/simulate_fmi3_me.c: NX, NZ", "examples/Dahlquist.c, VanDerPol.c, BouncingBall.c: recordVariables", "src/cosimulation.c: doFixedStep", "src/fmi2Functions.c: fmi2DoStep", "src/fmi3Functions.c: fmi3DoStep"]}
{"id": "C79", "title": "The capabilities that the model descriptions declare are delivered", "statement": "The attributes of the modelDescription.xml files agree with the behaviour of the FMUs: with the instantiation token of the file, an FMU can be instantiated exactly for the interface types that the file declares, and with Event Mode exactly if hasEventMode is declared; the times that a Co-Simulation instance reports are multiples of the declared fixedInternalStepSize after the start time; directional and adjoint derivatives are given exactly if they are declared; and fmi3DoStep returns early only if mightReturnEarlyFromDoStep is declared.", "quantifier": "all nine FMUs, FMI 2.0 and FMI 3.0, all instantiation arguments, all reachable states, all histories of calls", "why_tests_cant": "an importer reads the attributes once and relies on them for every later history of calls; a test compares a few attributes with a few runs", "anchors": ["*/FMI2.xml", "*/FMI3.xml", "src/fmi3Functions.c: fmi3InstantiateCoSimulation, fmi3InstantiateScheduledExecution, fmi3GetDirectionalDerivative, fmi3GetAdjointDerivative, fmi3DoStep", "src/cosimulation.c: createModelInstance, doFixedStep", "*/config.h: FIXED_SOLVER_STEP, EVENT_UPDATE, INSTANTIATION_TOKEN"]}
{"id": "C80", "title": "The intermediate update callback is called once per internal step, at its end", "statement": "An FMI 3.0 Co-Simulation instance that was created with an intermediateUpdate callback calls it during fmi3DoStep, once for every internal solver step and with the time at the end of that step: between entering Initialization Mode with a start time and the next call that sets the time anew, the calls have the times start + h, start + 2h, ..., start + nh in this order, and the time variable then has the last of these values. No other function calls it; it is never called if it was not provided, nor in Model Exchange, Scheduled Execution or FMI 2.0.", "quantifier": "all FMUs, all instantiation arguments, all start times, all histories of calls before and during the session in which fmi3DoStep succeeds, fewer than 2^64 solver steps", "why_tests_cant": "an importer that samples inputs or outputs in the callback relies on the number and the times of the calls for every sequence of communication steps; a test sees one sequence", "anchors": ["src/cosimulation.c: doFixedStep", "src/fmi3Functions.c: fmi3DoStep, fmi3InstantiateCoSimulation, fmi3InstantiateModelExchange, fmi3InstantiateScheduledExecution", "src/fmi2Functions.c: fmi2Instantiate"]}
{"id": "C81", "title": "The programs for Feedthrough record the signals they feed into the FMU", "statement": "The example programs that drive Feedthrough feed it a piecewise linear signal with a jump at 0.5 and discrete signals of every variable type that change at 1. In the Co-Simulation program the row for a communication point shows, at every output and for every variable type, exactly the value that the inputs were given at the communication point before, the first row shows the start values, and nothing else is written; the outputs of the program thus reproduce the signals one communication step late. In the Model Exchange program the rows show the signals at the time of the row itself, with two rows for exactly the times 0.5, 1 and 1.5 at which an input changes, one before and one after the change; the discrete outputs change at the time 1.", "quantifier": "all step sizes and numbers of steps (Co-Simulation: fewer than 2^64 solver steps), all stop times in Model Exchange, all resource locations, every conversion to 32-bit floats; FMI 2.0 and FMI 3.0", "why_tests_cant": "a test with the one configured step size compares a few rows; a wrong value reference, a swapped input or a lag that depends on the step size needs all steps and all variables", "anchors": ["examples/Feedthrough.c: applyStartValues, applyContinuousInputs, applyDiscreteInputs, nextInputEventTime, recordVariables", "examples/simulate_fmi2_cs.c", "examples/simulate_fmi3_cs.c", "Feedthrough/model.c: getFloat64, setFloat64, calculateValues", "examples/simulate_fmi2_me.c", "examples/simulate_fmi3_me.c"]}
{"id": "C82", "title": "The status of the example programs tells whether the simulation succeeded", "statement": "If one of the example programs for Co-Simulation ends with the status OK, then the instance was created, and every call of an API function it made until the instance was terminated, including the termination, returned OK; the output file contains one row for each communication point until the stop time or until the FMU ended the simulation, then the row for the last successful time in FMI 2.0. The only exception is an FMI 2.0 step that is discarded and asked about. If a program for Model Exchange ends with the status OK, then the output file contains the rows recorded in a history of the instance in which every call returned OK, up to and including the termination. If a program ends with another status, then the instance could not be created or some call did not return OK.", "quantifier": "all FMUs (arbitrary model functions), all programs (start values, inputs, recorded variables, step sizes, stop times), all values of the macros for the numbers of states and event indicators, all resource locations; FMI 2.0 and FMI 3.0; every run that ends", "why_tests_cant": "A test runs the programs with the Reference FMUs, with which all calls succeed; the claim is about failures at every possible place of runs of every length.", "anchors": ["examples/util.h: CALL, tearDown", "examples/simulate_fmi2_cs.c", "examples/simulate_fmi3_cs.c", "examples/simulate_fmi2_me.c", "examples/simulate_fmi3_me.c", "examples/StateSpace.c: recordVariables"]}
{"id": "C83", "title": "The output files of the example programs are tables", "statement": "If one of the example programs ends with the status OK, then writing the output file is free of undefined behaviour, and the file is a table in CSV format: the first line names the columns, every other line shows one recorded row, in the order of recording, with the time and the recorded values in the order of the names; every line has as many cells as the first one and ends with a line break.", "quantifier": "the example programs of BouncingBall, Dahlquist, VanDerPol, Stair, Resource (FMI 2.0 and 3.0) and StateSpace (FMI 3.0), Co-Simulation and Model Exchange, all values of the macros, all resource locations and files, every run of every length, and every way in which the C library prints numbers without commas and line breaks", "why_tests_cant": "A test compares one file; the claim is about the values of all runs, and undefined behaviour in a format may print the right characters with one C library.", "anchors": ["examples/BouncingBall.c: createOutputFile, recordVariables", "examples/Dahlquist.c", "examples/VanDerPol.c", "examples/Stair.c", "examples/Resource.c", "examples/StateSpace.c: recordVariables", "examples/Feedthrough.c: recordVariables"]}
{"id": "C84", "title": "The example programs of Resource read the file in the resources directory of the FMU", "statement": "If the example program of Resource ends with the status OK, then every row of its output contains the first byte of the file y.txt in the resources directory of the unzipped FMU (or the value for an empty file), wherever this directory is, and no array is overrun on the way of its path from the operating system to the FMU.", "quantifier": "FMI 2.0 and 3.0, Co-Simulation and Model Exchange, all values of the macros, all paths of the resources directory, all file systems in which two slashes mean the same as one, every run of every length", "why_tests_cant": "A test runs the program in one directory; the claim is about all paths, including those with special characters and those of every length.", "anchors": ["examples/util.h: resourcePath, resourceURI", "examples/simulate_fmi2_cs.c: main", "examples/simulate_fmi2_me.c: main", "examples/simulate_fmi3_cs.c: main", "examples/simulate_fmi3_me.c: main", "examples/Resource.c", "Resource/model.c"]}
{"id": "C85", "title": "The importer reports every call with the name of the function, its arguments and its status", "statement": "If a function call logger is set, then each call of a wrapper function of the importer library is reported by the message name(p1=a1, p2=a2, ...) with the name of the function of the FMI standard, its parameters in their order and the values of the arguments, without undefined behaviour. The log file of an example program holds one line \"message -> status\" for each call, in their order.", "quantifier": "all wrapper functions of FMI 2.0 and 3.0, all arguments they take (arrays and strings of every length), all statuses, all sequences of calls", "why_tests_cant": "A test checks some functions with some arguments; a conversion that does not match its argument, a wrong count or too few arguments of printf often go unnoticed in a run. The claim is about every function, every array and every history of the buffer.", "anchors": ["src/FMI2.c: CALL, CALL_ARGS, CALL_ARRAY and the functions FMI2*", "src/FMI3.c: CALL, CALL_ARGS, CALL_ARRAY and the functions FMI3*", "src/FMI.c: FMIAppendToLogMessageBuffer, FMIAppendArrayToLogMessageBuffer", "examples/util.h: logFunctionCall"]}
{"id": "C86", "title": "An FMU refuses the instantiation token of another FMU", "statement": "Instantiating the library of one Reference FMU with the instantiation token (FMI 2.0: GUID) from the model description of another Reference FMU gives NULL, so that a library is never used with the wrong model description.", "quantifier": "all pairs of different FMUs for FMI 2.0 and 3.0, all functions that instantiate, all other arguments", "why_tests_cant": "Tests instantiate each FMU with its own token; the claim is about all pairs and all arguments.", "anchors": ["src/cosimulation.c: createModelInstance", "src/fmi2Functions.c: fmi2Instantiate", "src/fmi3Functions.c: fmi3InstantiateModelExchange, fmi3InstantiateCoSimulation, fmi3InstantiateScheduledExecution", "*/config.h: INSTANTIATION_TOKEN", "*/FMI2.xml", "*/FMI3.xml"]}
{"id": "C87", "title": "The programs that show how to import a library release what they acquire and report whether the FMU was instantiated", "statement": "The example programs import_shared_library and import_static_library end with EXIT_SUCCESS exactly if the FMU was instantiated; they use nothing that they have not acquired, and whatever they acquire (library, instance) they release once.", "quantifier": "all libraries in the place of the library of VanDerPol (any Reference FMU with any set of exported functions, or none), with and without memory", "why_tests_cant": "A test runs the programs with the right library; the claim is about every way in which opening, loading and instantiating can fail.", "anchors": ["examples/import_shared_library.c: main", "examples/import_static_library.c: main", "src/cosimulation.c: createModelInstance, freeModelInstance"]}
{"id": "C88", "title": "A message of an FMU reaches the logger of the importing program as the FMU has written it", "statement": "Each message that an FMU logs (error or event, if the switch for its kind is on) is passed by the importer library to the logger of the importing program exactly once, with the status, the category and the text that the FMU has made from its format and arguments; without a logger nothing happens. In particular, setting an unknown log category gives the message that names this category and its position.", "quantifier": "all formats and arguments, all positions of the switches, FMI 2.0 and 3.0, with and without a logger, all arrays of log categories", "why_tests_cant": "Tests log a few fixed messages; the texts contain strings of the user (log categories, paths), and the claim is about all of them.", "anchors": ["src/cosimulation.c: logError, logEvent, logMessage, setDebugLogging", "src/FMI2.c: cb_logMessage2, FMI2Instantiate", "src/FMI3.c: cb_logMessage3, FMI3InstantiateModelExchange, FMI3InstantiateCoSimulation, FMI3InstantiateScheduledExecution", "include/FMI.h: FMI_MAX_MESSAGE_LENGTH", "examples/util.h: logMessage"]}
{"id": "C89", "title": "An output of Clocks changes only when one of its clocks ticks", "statement": "While none of the input clocks that the model description of Clocks lists for an output is activated, reading the output gives the same value, whatever other calls the importer makes and whether they succeed. The value after an activation depends only on the value before it and on the inputs that the model description lists, not on the other variables, the time or the history.", "quantifier": "all outputs of type Int32, all sequences of calls other than fmi3Reset and fmi3SetFMUState, with any arguments and results, one call after the other; for the second part all pairs of instances", "why_tests_cant": "The calls between two ticks of a clock are an arbitrary history, including failing calls, and the second part compares pairs of histories.", "anchors": ["Clocks/model.c: activateModelPartition1, activateModelPartition2, activateModelPartition3, setInt32, getClock, getInterval", "Clocks/FMI3.xml: clocks, dependencies"]}
{"id": "C90", "title": "The script that checks the source files repairs them without changing their meaning, and its exit status tells whether problems remain", "statement": "A checked file with a problem is rewritten so that it has no tabs, no carriage returns, no spaces at the ends of its lines and a line end at its end; the characters that are not white space stay the same, in the same order; a second run changes nothing. Other files are not changed. The exit status is 0 exactly if no checked file has a problem.", "quantifier": "all texts, all sets of files and directories", "why_tests_cant": "The claim is about all texts, including those with missing or mixed line ends and characters that are not ASCII; tests of the script do not exist.", "anchors": ["build/lint_files.py: lint_file, fix_file"]}
{"id": "C91", "title": "The merged FMU has for every platform the library that was built for it, and names the version of the sources", "statement": "If the script that merges the FMUs of all platforms succeeds, every merged FMU has in the directory of each released platform, where the importer looks for it, exactly the files of the FMU built for that platform; it has all other files of the platform FMUs and no others but documentation; and if the repository is clean, its model description differs from the original only in the version that git names and in the time of generation.", "quantifier": "all contents of the FMUs of all platforms, both FMI versions, all versions and times", "why_tests_cant": "The script runs only in a release and its result depends on the contents of up to six archives with overlapping names; no tests of it exist.", "anchors": ["build/merge_binaries.py: merge_fmus, set_tool_version", "CMakeLists.txt: FMI_PLATFORM"]}
{"id": "C92", "title": "The programs for Stair record every stair up to the last one", "statement": "A Co-Simulation program built from examples/Stair.c ends without error, whatever the communication step size. It writes one row for every communication point before the counter reaches 10, and the counter in it is the number of whole seconds plus 1. If the stop time is 9 or later, the last row shows the end of the simulation, the time 9 with the counter 10, and nothing is recorded for later times. A Model Exchange program built from it shows the same stairs, the last one included.", "quantifier": "all positive step sizes, all stop times that are multiples of them, FMI 2.0 and FMI 3.0, Co-Simulation and Model Exchange", "why_tests_cant": "The counter depends on how the communication steps, the solver steps of 0.2 s and the time events interlock, and on the step in which the FMU ends the simulation; the tests run one step size and compare no results.", "anchors": ["examples/Stair.c: recordVariables", "examples/simulate_fmi2_cs.c: main", "examples/simulate_fmi3_cs.c: main", "Stair/model.c: eventUpdate", "examples/simulate_fmi2_me.c: main", "examples/simulate_fmi3_me.c: main"]}
