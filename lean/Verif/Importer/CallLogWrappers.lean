import Verif.Importer.CallLog

/-!
# Importer: how the wrapper functions of src/FMI2.c and src/FMI3.c report their calls

All wrapper functions. In the functions that instantiate, the arguments are those passed to the FMU: `instance->name`
is `instanceName`, `instance` is `instanceEnvironment`.
-/

namespace Verif.Importer.CallLog

/-- `FMI2GetTypesPlatform`, src/FMI2.c 102-109. -/
def FMI2GetTypesPlatform : Wrapper := ⟨(chars! "fmi2GetTypesPlatform"), [.text (chars! "fmi2GetTypesPlatform()") []]⟩

/-- `FMI2GetVersion`, src/FMI2.c 111-118. -/
def FMI2GetVersion : Wrapper := ⟨(chars! "fmi2GetVersion"), [.text (chars! "fmi2GetVersion()") []]⟩

/-- `FMI2SetDebugLogging`, src/FMI2.c 120-133. -/
def FMI2SetDebugLogging : Wrapper := ⟨(chars! "fmi2SetDebugLogging"), [.text (chars! "fmi2SetDebugLogging(loggingOn=%d, nCategories=%zu, categories={") [], .array (chars! "categories") (chars! "nCategories") none .string, .text (chars! "})") []]⟩

/-- `FMI2Instantiate`, src/FMI2.c 136-245; `functions` are `instance->fmi2Functions->callbacks`. -/
def FMI2Instantiate : Wrapper := ⟨(chars! "fmi2Instantiate"), [.text (chars! "fmi2Instantiate(instanceName=\"%s\", fmuType=%d, fmuGUID=\"%s\", fmuResourceLocation=\"%s\", functions={logger=0x%p, allocateMemory=0x%p, freeMemory=0x%p, stepFinished=0x%p, componentEnvironment=0x%p}, visible=%d, loggingOn=%d)") [.var (chars! "instanceName"), .var (chars! "fmuType"), .var (chars! "fmuGUID"), .var (chars! "fmuResourceLocation"), .field (chars! "functions") (chars! "logger"), .field (chars! "functions") (chars! "allocateMemory"), .field (chars! "functions") (chars! "freeMemory"), .field (chars! "functions") (chars! "stepFinished"), .field (chars! "functions") (chars! "componentEnvironment"), .var (chars! "visible"), .var (chars! "loggingOn")]]⟩

/-- `FMI2FreeInstance`, src/FMI2.c 247-258. -/
def FMI2FreeInstance : Wrapper := ⟨(chars! "fmi2FreeInstance"), [.text (chars! "fmi2FreeInstance()") []]⟩

/-- `FMI2SetupExperiment`, src/FMI2.c 261-268. -/
def FMI2SetupExperiment : Wrapper := callArgs (chars! "fmi2") (chars! "SetupExperiment") (chars! "toleranceDefined=%d, tolerance=%.16g, startTime=%.16g, stopTimeDefined=%d, stopTime=%.16g") [(chars! "toleranceDefined"), (chars! "tolerance"), (chars! "startTime"), (chars! "stopTimeDefined"), (chars! "stopTime")]

/-- `FMI2EnterInitializationMode`, src/FMI2.c 270-273. -/
def FMI2EnterInitializationMode : Wrapper := call (chars! "fmi2") (chars! "EnterInitializationMode")

/-- `FMI2ExitInitializationMode`, src/FMI2.c 275-278. -/
def FMI2ExitInitializationMode : Wrapper := call (chars! "fmi2") (chars! "ExitInitializationMode")

/-- `FMI2Terminate`, src/FMI2.c 280-283. -/
def FMI2Terminate : Wrapper := call (chars! "fmi2") (chars! "Terminate")

/-- `FMI2Reset`, src/FMI2.c 285-288. -/
def FMI2Reset : Wrapper := call (chars! "fmi2") (chars! "Reset")

/-- `FMI2GetReal`, src/FMI2.c 291-293. -/
def FMI2GetReal : Wrapper := callArray2 (chars! "Get") (chars! "Real") .float64

/-- `FMI2GetInteger`, src/FMI2.c 295-297. -/
def FMI2GetInteger : Wrapper := callArray2 (chars! "Get") (chars! "Integer") .int32

/-- `FMI2GetBoolean`, src/FMI2.c 299-301. -/
def FMI2GetBoolean : Wrapper := callArray2 (chars! "Get") (chars! "Boolean") .boolean

/-- `FMI2GetString`, src/FMI2.c 303-305. -/
def FMI2GetString : Wrapper := callArray2 (chars! "Get") (chars! "String") .string

/-- `FMI2SetReal`, src/FMI2.c 307-309. -/
def FMI2SetReal : Wrapper := callArray2 (chars! "Set") (chars! "Real") .float64

/-- `FMI2SetInteger`, src/FMI2.c 311-313. -/
def FMI2SetInteger : Wrapper := callArray2 (chars! "Set") (chars! "Integer") .int32

/-- `FMI2SetBoolean`, src/FMI2.c 315-317. -/
def FMI2SetBoolean : Wrapper := callArray2 (chars! "Set") (chars! "Boolean") .boolean

/-- `FMI2SetString`, src/FMI2.c 319-321. -/
def FMI2SetString : Wrapper := callArray2 (chars! "Set") (chars! "String") .string

/-- `FMI2GetFMUstate`, src/FMI2.c 324-326. -/
def FMI2GetFMUstate : Wrapper := callArgs (chars! "fmi2") (chars! "GetFMUstate") (chars! "FMUstate=0x%p") [(chars! "FMUstate")]

/-- `FMI2SetFMUstate`, src/FMI2.c 328-330. -/
def FMI2SetFMUstate : Wrapper := callArgs (chars! "fmi2") (chars! "SetFMUstate") (chars! "FMUstate=0x%p") [(chars! "FMUstate")]

/-- `FMI2FreeFMUstate`, src/FMI2.c 332-334. -/
def FMI2FreeFMUstate : Wrapper := callArgs (chars! "fmi2") (chars! "FreeFMUstate") (chars! "FMUstate=0x%p") [(chars! "FMUstate")]

/-- `FMI2SerializedFMUstateSize`, src/FMI2.c 336-347. -/
def FMI2SerializedFMUstateSize : Wrapper := ⟨(chars! "fmi2SerializedFMUstateSize"), [.text (chars! "fmi2SerializedFMUstateSize(FMUstate=0x%p, size=%zu)") [.var (chars! "FMUstate"), .deref (chars! "size")]]⟩

/-- `FMI2SerializeFMUstate`, src/FMI2.c 349-351. -/
def FMI2SerializeFMUstate : Wrapper := callArgs (chars! "fmi2") (chars! "SerializeFMUstate") (chars! "FMUstate=0x%p, serializedState=0x%p, size=%zu") [(chars! "FMUstate"), (chars! "serializedState"), (chars! "size")]

/-- `FMI2DeSerializeFMUstate`, src/FMI2.c 353-355. -/
def FMI2DeSerializeFMUstate : Wrapper := callArgs (chars! "fmi2") (chars! "DeSerializeFMUstate") (chars! "serializedState=0x%p, size=%zu, FMUstate=0x%p") [(chars! "serializedState"), (chars! "size"), (chars! "FMUstate")]

/-- `FMI2GetDirectionalDerivative`, src/FMI2.c 358-381. -/
def FMI2GetDirectionalDerivative : Wrapper := ⟨(chars! "fmi2GetDirectionalDerivative"), [.text (chars! "fmi2GetDirectionalDerivative(vUnknown_ref={") [], .array (chars! "vUnknown_ref") (chars! "nUnknown") none .valueReference, .text (chars! "}, nUnknown=%zu, vKnown_ref={") [.var (chars! "nUnknown")], .array (chars! "vKnown_ref") (chars! "nKnown") none .valueReference, .text (chars! "}, nKnown=%zu, dvKnown={") [.var (chars! "nKnown")], .array (chars! "dvKnown") (chars! "nKnown") none .float64, .text (chars! "}, dvUnknown={") [.var (chars! "nKnown")], .array (chars! "dvUnknown") (chars! "nUnknown") none .float64, .text (chars! "})") []]⟩

/-- `FMI2EnterEventMode`, src/FMI2.c 388-391. -/
def FMI2EnterEventMode : Wrapper := call (chars! "fmi2") (chars! "EnterEventMode")

/-- `FMI2NewDiscreteStates`, src/FMI2.c 393-406. -/
def FMI2NewDiscreteStates : Wrapper := ⟨(chars! "fmi2NewDiscreteStates"), [.text (chars! "fmi2NewDiscreteStates(eventInfo={newDiscreteStatesNeeded=%d, terminateSimulation=%d, nominalsOfContinuousStatesChanged=%d, valuesOfContinuousStatesChanged=%d, nextEventTimeDefined=%d, nextEventTime=%.16g})") [.field (chars! "eventInfo") (chars! "newDiscreteStatesNeeded"), .field (chars! "eventInfo") (chars! "terminateSimulation"), .field (chars! "eventInfo") (chars! "nominalsOfContinuousStatesChanged"), .field (chars! "eventInfo") (chars! "valuesOfContinuousStatesChanged"), .field (chars! "eventInfo") (chars! "nextEventTimeDefined"), .field (chars! "eventInfo") (chars! "nextEventTime")]]⟩

/-- `FMI2EnterContinuousTimeMode`, src/FMI2.c 408-411. -/
def FMI2EnterContinuousTimeMode : Wrapper := call (chars! "fmi2") (chars! "EnterContinuousTimeMode")

/-- `FMI2CompletedIntegratorStep`, src/FMI2.c 413-429. -/
def FMI2CompletedIntegratorStep : Wrapper := ⟨(chars! "fmi2CompletedIntegratorStep"), [.text (chars! "fmi2CompletedIntegratorStep(noSetFMUStatePriorToCurrentPoint=%d, enterEventMode=%d, terminateSimulation=%d)") [.var (chars! "noSetFMUStatePriorToCurrentPoint"), .deref (chars! "enterEventMode"), .deref (chars! "terminateSimulation")]]⟩

/-- `FMI2SetTime`, src/FMI2.c 432-434. -/
def FMI2SetTime : Wrapper := callArgs (chars! "fmi2") (chars! "SetTime") (chars! "time=%.16g") [(chars! "time")]

/-- `FMI2SetContinuousStates`, src/FMI2.c 436-449. -/
def FMI2SetContinuousStates : Wrapper := ⟨(chars! "fmi2SetContinuousStates"), [.text (chars! "fmi2SetContinuousStates(x={") [], .array (chars! "x") (chars! "nx") none .float64, .text (chars! "}, nx=%zu)") [.var (chars! "nx")]]⟩

/-- `FMI2GetDerivatives`, src/FMI2.c 452-465. -/
def FMI2GetDerivatives : Wrapper := ⟨(chars! "fmi2GetDerivatives"), [.text (chars! "fmi2GetDerivatives(derivatives={") [], .array (chars! "derivatives") (chars! "nx") none .float64, .text (chars! "}, nx=%zu)") [.var (chars! "nx")]]⟩

/-- `FMI2GetEventIndicators`, src/FMI2.c 467-480. -/
def FMI2GetEventIndicators : Wrapper := ⟨(chars! "fmi2GetEventIndicators"), [.text (chars! "fmi2GetEventIndicators(eventIndicators={") [], .array (chars! "eventIndicators") (chars! "ni") none .float64, .text (chars! "}, ni=%zu)") [.var (chars! "ni")]]⟩

/-- `FMI2GetContinuousStates`, src/FMI2.c 482-495. -/
def FMI2GetContinuousStates : Wrapper := ⟨(chars! "fmi2GetContinuousStates"), [.text (chars! "fmi2GetContinuousStates(x={") [], .array (chars! "x") (chars! "nx") none .float64, .text (chars! "}, nx=%zu)") [.var (chars! "nx")]]⟩

/-- `FMI2GetNominalsOfContinuousStates`, src/FMI2.c 497-510. -/
def FMI2GetNominalsOfContinuousStates : Wrapper := ⟨(chars! "fmi2GetNominalsOfContinuousStates"), [.text (chars! "fmi2GetNominalsOfContinuousStates(x_nominal={") [], .array (chars! "x_nominal") (chars! "nx") none .float64, .text (chars! "}, nx=%zu)") [.var (chars! "nx")]]⟩

/-- `FMI2SetRealInputDerivatives`, src/FMI2.c 517-522. -/
def FMI2SetRealInputDerivatives : Wrapper := callArgs (chars! "fmi2") (chars! "SetRealInputDerivatives") (chars! "vr=0x%p, nvr=%zu, order=0x%p, value=0x%p") [(chars! "vr"), (chars! "nvr"), (chars! "order"), (chars! "value")]

/-- `FMI2GetRealOutputDerivatives`, src/FMI2.c 524-529. -/
def FMI2GetRealOutputDerivatives : Wrapper := callArgs (chars! "fmi2") (chars! "GetRealOutputDerivatives") (chars! "vr=0x%p, nvr=%zu, order=0x%p, value=0x%p") [(chars! "vr"), (chars! "nvr"), (chars! "order"), (chars! "value")]

/-- `FMI2DoStep`, src/FMI2.c 531-537. -/
def FMI2DoStep : Wrapper := callArgs (chars! "fmi2") (chars! "DoStep") (chars! "currentCommunicationPoint=%.16g, communicationStepSize=%.16g, noSetFMUStatePriorToCurrentPoint=%d") [(chars! "currentCommunicationPoint"), (chars! "communicationStepSize"), (chars! "noSetFMUStatePriorToCurrentPoint")]

/-- `FMI2CancelStep`, src/FMI2.c 539-541. -/
def FMI2CancelStep : Wrapper := call (chars! "fmi2") (chars! "CancelStep")

/-- `FMI2GetStatus`, src/FMI2.c 544-555. -/
def FMI2GetStatus : Wrapper := ⟨(chars! "fmi2GetStatus"), [.text (chars! "fmi2GetStatus(s=%d, value=%d)") [.var (chars! "s"), .deref (chars! "value")]]⟩

/-- `FMI2GetRealStatus`, src/FMI2.c 557-568. -/
def FMI2GetRealStatus : Wrapper := ⟨(chars! "fmi2GetRealStatus"), [.text (chars! "fmi2GetRealStatus(s=%d, value=%.16g)") [.var (chars! "s"), .deref (chars! "value")]]⟩

/-- `FMI2GetIntegerStatus`, src/FMI2.c 570-581. -/
def FMI2GetIntegerStatus : Wrapper := ⟨(chars! "fmi2GetIntegerStatus"), [.text (chars! "fmi2GetIntegerStatus(s=%d, value=%d)") [.var (chars! "s"), .deref (chars! "value")]]⟩

/-- `FMI2GetBooleanStatus`, src/FMI2.c 583-594. -/
def FMI2GetBooleanStatus : Wrapper := ⟨(chars! "fmi2GetBooleanStatus"), [.text (chars! "fmi2GetBooleanStatus(s=%d, value=%d)") [.var (chars! "s"), .deref (chars! "value")]]⟩

/-- `FMI2GetStringStatus`, src/FMI2.c 596-607. -/
def FMI2GetStringStatus : Wrapper := ⟨(chars! "fmi2GetStringStatus"), [.text (chars! "fmi2GetStringStatus(s=%d, value=\"%s\")") [.var (chars! "s"), .deref (chars! "value")]]⟩

/-- `FMI3GetVersion`, src/FMI3.c 97-102. -/
def FMI3GetVersion : Wrapper := ⟨(chars! "fmi3GetVersion"), [.text (chars! "fmi3GetVersion()") []]⟩

/-- `FMI3SetDebugLogging`, src/FMI3.c 104-120. -/
def FMI3SetDebugLogging : Wrapper := ⟨(chars! "fmi3SetDebugLogging"), [.text (chars! "fmi3SetDebugLogging(loggingOn=%d, nCategories=%zu, categories={") [], .array (chars! "categories") (chars! "nCategories") none .string, .text (chars! "})") []]⟩

/-- `FMI3InstantiateModelExchange`, src/FMI3.c 256-298. -/
def FMI3InstantiateModelExchange : Wrapper := ⟨(chars! "fmi3InstantiateModelExchange"), [.text (chars! "fmi3InstantiateModelExchange(instanceName=\"%s\", instantiationToken=\"%s\", resourcePath=\"%s\", visible=%d, loggingOn=%d, instanceEnvironment=0x%p, logMessage=0x%p)") [.var (chars! "instanceName"), .var (chars! "instantiationToken"), .var (chars! "resourcePath"), .var (chars! "visible"), .var (chars! "loggingOn"), .var (chars! "instanceEnvironment"), .var (chars! "logMessage")]]⟩

/-- `FMI3InstantiateCoSimulation`, src/FMI3.c 300-373. -/
def FMI3InstantiateCoSimulation : Wrapper := ⟨(chars! "fmi3InstantiateCoSimulation"), [.text (chars! "fmi3InstantiateCoSimulation(instanceName=\"%s\", instantiationToken=\"%s\", resourcePath=\"%s\", visible=%d, loggingOn=%d, eventModeUsed=%d, earlyReturnAllowed=%d, requiredIntermediateVariables=0x%p, nRequiredIntermediateVariables=%zu, instanceEnvironment=0x%p, logMessage=0x%p, intermediateUpdate=0x%p)") [.var (chars! "instanceName"), .var (chars! "instantiationToken"), .var (chars! "resourcePath"), .var (chars! "visible"), .var (chars! "loggingOn"), .var (chars! "eventModeUsed"), .var (chars! "earlyReturnAllowed"), .var (chars! "requiredIntermediateVariables"), .var (chars! "nRequiredIntermediateVariables"), .var (chars! "instanceEnvironment"), .var (chars! "logMessage"), .var (chars! "intermediateUpdate")]]⟩

/-- `FMI3InstantiateScheduledExecution`, src/FMI3.c 375-440. -/
def FMI3InstantiateScheduledExecution : Wrapper := ⟨(chars! "fmi3InstantiateScheduledExecution"), [.text (chars! "fmi3InstantiateScheduledExecution(instanceName=\"%s\", instantiationToken=\"%s\", resourcePath=\"%s\", visible=%d, loggingOn=%d, instanceEnvironment=0x%p, logMessage=0x%p, clockUpdate=0x%p, lockPreemption=0x%p, unlockPreemption=0x%p)") [.var (chars! "instanceName"), .var (chars! "instantiationToken"), .var (chars! "resourcePath"), .var (chars! "visible"), .var (chars! "loggingOn"), .var (chars! "instanceEnvironment"), .var (chars! "logMessage"), .var (chars! "clockUpdate"), .var (chars! "lockPreemption"), .var (chars! "unlockPreemption")]]⟩

/-- `FMI3FreeInstance`, src/FMI3.c 442-457. -/
def FMI3FreeInstance : Wrapper := ⟨(chars! "fmi3FreeInstance"), [.text (chars! "fmi3FreeInstance()") []]⟩

/-- `FMI3EnterInitializationMode`, src/FMI3.c 460-472. -/
def FMI3EnterInitializationMode : Wrapper := callArgs (chars! "fmi3") (chars! "EnterInitializationMode") (chars! "toleranceDefined=%d, tolerance=%.16g, startTime=%.16g, stopTimeDefined=%d, stopTime=%.16g") [(chars! "toleranceDefined"), (chars! "tolerance"), (chars! "startTime"), (chars! "stopTimeDefined"), (chars! "stopTime")]

/-- `FMI3ExitInitializationMode`, src/FMI3.c 474-485. -/
def FMI3ExitInitializationMode : Wrapper := call (chars! "fmi3") (chars! "ExitInitializationMode")

/-- `FMI3EnterEventMode`, src/FMI3.c 487-490. -/
def FMI3EnterEventMode : Wrapper := call (chars! "fmi3") (chars! "EnterEventMode")

/-- `FMI3Terminate`, src/FMI3.c 492-495. -/
def FMI3Terminate : Wrapper := call (chars! "fmi3") (chars! "Terminate")

/-- `FMI3Reset`, src/FMI3.c 497-500. -/
def FMI3Reset : Wrapper := call (chars! "fmi3") (chars! "Reset")

/-- `FMI3GetFloat32`, src/FMI3.c 503-509. -/
def FMI3GetFloat32 : Wrapper := callArray3 (chars! "Get") (chars! "Float32") .float32

/-- `FMI3GetFloat64`, src/FMI3.c 511-517. -/
def FMI3GetFloat64 : Wrapper := callArray3 (chars! "Get") (chars! "Float64") .float64

/-- `FMI3GetInt8`, src/FMI3.c 519-525. -/
def FMI3GetInt8 : Wrapper := callArray3 (chars! "Get") (chars! "Int8") .int8

/-- `FMI3GetUInt8`, src/FMI3.c 527-533. -/
def FMI3GetUInt8 : Wrapper := callArray3 (chars! "Get") (chars! "UInt8") .uint8

/-- `FMI3GetInt16`, src/FMI3.c 535-541. -/
def FMI3GetInt16 : Wrapper := callArray3 (chars! "Get") (chars! "Int16") .int16

/-- `FMI3GetUInt16`, src/FMI3.c 543-549. -/
def FMI3GetUInt16 : Wrapper := callArray3 (chars! "Get") (chars! "UInt16") .uint16

/-- `FMI3GetInt32`, src/FMI3.c 551-557. -/
def FMI3GetInt32 : Wrapper := callArray3 (chars! "Get") (chars! "Int32") .int32

/-- `FMI3GetUInt32`, src/FMI3.c 559-565. -/
def FMI3GetUInt32 : Wrapper := callArray3 (chars! "Get") (chars! "UInt32") .uint32

/-- `FMI3GetInt64`, src/FMI3.c 567-573. -/
def FMI3GetInt64 : Wrapper := callArray3 (chars! "Get") (chars! "Int64") .int64

/-- `FMI3GetUInt64`, src/FMI3.c 575-581. -/
def FMI3GetUInt64 : Wrapper := callArray3 (chars! "Get") (chars! "UInt64") .uint64

/-- `FMI3GetBoolean`, src/FMI3.c 583-589. -/
def FMI3GetBoolean : Wrapper := callArray3 (chars! "Get") (chars! "Boolean") .boolean

/-- `FMI3GetString`, src/FMI3.c 591-597. -/
def FMI3GetString : Wrapper := callArray3 (chars! "Get") (chars! "String") .string

/-- `FMI3GetBinary`, src/FMI3.c 599-621. -/
def FMI3GetBinary : Wrapper := ⟨(chars! "fmi3GetBinary"), [.text (chars! "fmi3GetBinary(valueReferences={") [], .array (chars! "valueReferences") (chars! "nValueReferences") none .valueReference, .text (chars! "}, nValueReferences=%zu, sizes={") [.var (chars! "nValueReferences")], .array (chars! "sizes") (chars! "nValueReferences") none .sizeT, .text (chars! "}, values={") [], .array (chars! "values") (chars! "nValues") (some (chars! "sizes")) .binary, .text (chars! "}, nValues=%zu)") [.var (chars! "nValues")]]⟩

/-- `FMI3GetClock`, src/FMI3.c 623-641. -/
def FMI3GetClock : Wrapper := ⟨(chars! "fmi3GetClock"), [.text (chars! "fmi3GetClock(valueReferences={") [], .array (chars! "valueReferences") (chars! "nValueReferences") none .valueReference, .text (chars! "}, nValueReferences=%zu, values={") [.var (chars! "nValueReferences")], .array (chars! "values") (chars! "nValueReferences") none .clock, .text (chars! "})") []]⟩

/-- `FMI3SetFloat32`, src/FMI3.c 643-649. -/
def FMI3SetFloat32 : Wrapper := callArray3 (chars! "Set") (chars! "Float32") .float32

/-- `FMI3SetFloat64`, src/FMI3.c 651-657. -/
def FMI3SetFloat64 : Wrapper := callArray3 (chars! "Set") (chars! "Float64") .float64

/-- `FMI3SetInt8`, src/FMI3.c 659-665. -/
def FMI3SetInt8 : Wrapper := callArray3 (chars! "Set") (chars! "Int8") .int8

/-- `FMI3SetUInt8`, src/FMI3.c 667-673. -/
def FMI3SetUInt8 : Wrapper := callArray3 (chars! "Set") (chars! "UInt8") .uint8

/-- `FMI3SetInt16`, src/FMI3.c 675-681. -/
def FMI3SetInt16 : Wrapper := callArray3 (chars! "Set") (chars! "Int16") .int16

/-- `FMI3SetUInt16`, src/FMI3.c 683-689. -/
def FMI3SetUInt16 : Wrapper := callArray3 (chars! "Set") (chars! "UInt16") .uint16

/-- `FMI3SetInt32`, src/FMI3.c 691-697. -/
def FMI3SetInt32 : Wrapper := callArray3 (chars! "Set") (chars! "Int32") .int32

/-- `FMI3SetUInt32`, src/FMI3.c 699-705. -/
def FMI3SetUInt32 : Wrapper := callArray3 (chars! "Set") (chars! "UInt32") .uint32

/-- `FMI3SetInt64`, src/FMI3.c 707-713. -/
def FMI3SetInt64 : Wrapper := callArray3 (chars! "Set") (chars! "Int64") .int64

/-- `FMI3SetUInt64`, src/FMI3.c 715-721. -/
def FMI3SetUInt64 : Wrapper := callArray3 (chars! "Set") (chars! "UInt64") .uint64

/-- `FMI3SetBoolean`, src/FMI3.c 723-729. -/
def FMI3SetBoolean : Wrapper := callArray3 (chars! "Set") (chars! "Boolean") .boolean

/-- `FMI3SetString`, src/FMI3.c 731-737. -/
def FMI3SetString : Wrapper := callArray3 (chars! "Set") (chars! "String") .string

/-- `FMI3SetBinary`, src/FMI3.c 739-761. -/
def FMI3SetBinary : Wrapper := ⟨(chars! "fmi3SetBinary"), [.text (chars! "fmi3SetBinary(valueReferences={") [], .array (chars! "valueReferences") (chars! "nValueReferences") none .valueReference, .text (chars! "}, nValueReferences=%zu, sizes={") [.var (chars! "nValueReferences")], .array (chars! "sizes") (chars! "nValueReferences") none .sizeT, .text (chars! "}, values={") [], .array (chars! "values") (chars! "nValues") (some (chars! "sizes")) .binary, .text (chars! "}, nValues=%zu)") [.var (chars! "nValues")]]⟩

/-- `FMI3SetClock`, src/FMI3.c 763-781. -/
def FMI3SetClock : Wrapper := ⟨(chars! "fmi3SetClock"), [.text (chars! "fmi3SetClock(valueReferences={") [], .array (chars! "valueReferences") (chars! "nValueReferences") none .valueReference, .text (chars! "}, nValueReferences=%zu, values={") [.var (chars! "nValueReferences")], .array (chars! "values") (chars! "nValueReferences") none .clock, .text (chars! "})") []]⟩

/-- `FMI3GetNumberOfVariableDependencies`, src/FMI3.c 784-788. -/
def FMI3GetNumberOfVariableDependencies : Wrapper := callArgs (chars! "fmi3") (chars! "GetNumberOfVariableDependencies") (chars! "valueReference=%u, nDependencies=0x%p") [(chars! "valueReference"), (chars! "nDependencies")]

/-- `FMI3GetVariableDependencies`, src/FMI3.c 790-799. -/
def FMI3GetVariableDependencies : Wrapper := callArgs (chars! "fmi3") (chars! "GetVariableDependencies") (chars! "dependent=%u, elementIndicesOfDependent=0x%p, independents=0x%p, elementIndicesOfIndependents=0x%p, dependencyKinds=0x%p, nDependencies=%zu") [(chars! "dependent"), (chars! "elementIndicesOfDependent"), (chars! "independents"), (chars! "elementIndicesOfIndependents"), (chars! "dependencyKinds"), (chars! "nDependencies")]

/-- `FMI3GetFMUState`, src/FMI3.c 802-804. -/
def FMI3GetFMUState : Wrapper := callArgs (chars! "fmi3") (chars! "GetFMUState") (chars! "FMUState=0x%p") [(chars! "FMUState")]

/-- `FMI3SetFMUState`, src/FMI3.c 806-808. -/
def FMI3SetFMUState : Wrapper := callArgs (chars! "fmi3") (chars! "SetFMUState") (chars! "FMUState=0x%p") [(chars! "FMUState")]

/-- `FMI3FreeFMUState`, src/FMI3.c 810-812. -/
def FMI3FreeFMUState : Wrapper := callArgs (chars! "fmi3") (chars! "FreeFMUState") (chars! "FMUState=0x%p") [(chars! "FMUState")]

/-- `FMI3SerializedFMUStateSize`, src/FMI3.c 815-828. -/
def FMI3SerializedFMUStateSize : Wrapper := ⟨(chars! "fmi3SerializedFMUStateSize"), [.text (chars! "fmi3SerializedFMUStateSize(FMUState=0x%p, size=%zu)") [.var (chars! "FMUState"), .deref (chars! "size")]]⟩

/-- `FMI3SerializeFMUState`, src/FMI3.c 830-835. -/
def FMI3SerializeFMUState : Wrapper := callArgs (chars! "fmi3") (chars! "SerializeFMUState") (chars! "FMUstate=0x%p, serializedState=0x%p, size=%zu") [(chars! "FMUState"), (chars! "serializedState"), (chars! "size")]

/-- `FMI3DeserializeFMUState`, src/FMI3.c 837-842. -/
def FMI3DeserializeFMUState : Wrapper := callArgs (chars! "fmi3") (chars! "DeserializeFMUState") (chars! "serializedState=0x%p, size=%zu, FMUState=0x%p") [(chars! "serializedState"), (chars! "size"), (chars! "FMUState")]

/-- `FMI3GetDirectionalDerivative`, src/FMI3.c 845-857. -/
def FMI3GetDirectionalDerivative : Wrapper := callArgs (chars! "fmi3") (chars! "GetDirectionalDerivative") (chars! "unknowns=0x%p, nUnknowns=%zu, knowns=0x%p, nKnowns=%zu, seed=0x%p, nSeed=%zu, sensitivity=0x%p, nSensitivity=%zu") [(chars! "unknowns"), (chars! "nUnknowns"), (chars! "knowns"), (chars! "nKnowns"), (chars! "seed"), (chars! "nSeed"), (chars! "sensitivity"), (chars! "nSensitivity")]

/-- `FMI3GetAdjointDerivative`, src/FMI3.c 859-871. -/
def FMI3GetAdjointDerivative : Wrapper := callArgs (chars! "fmi3") (chars! "GetAdjointDerivative") (chars! "unknowns=0x%p, nUnknowns=%zu, knowns=0x%p, nKnowns=%zu, seed=0x%p, nSeed=%zu, sensitivity=0x%p, nSensitivity=%zu") [(chars! "unknowns"), (chars! "nUnknowns"), (chars! "knowns"), (chars! "nKnowns"), (chars! "seed"), (chars! "nSeed"), (chars! "sensitivity"), (chars! "nSensitivity")]

/-- `FMI3EnterConfigurationMode`, src/FMI3.c 874-877. -/
def FMI3EnterConfigurationMode : Wrapper := call (chars! "fmi3") (chars! "EnterConfigurationMode")

/-- `FMI3ExitConfigurationMode`, src/FMI3.c 879-902. -/
def FMI3ExitConfigurationMode : Wrapper := call (chars! "fmi3") (chars! "ExitConfigurationMode")

/-- `FMI3GetIntervalDecimal`, src/FMI3.c 906-914. -/
def FMI3GetIntervalDecimal : Wrapper := callArgs (chars! "fmi3") (chars! "GetIntervalDecimal") (chars! "valueReferences=0x%p, nValueReferences=%zu, intervals=0x%p, qualifiers=0x%p") [(chars! "valueReferences"), (chars! "nValueReferences"), (chars! "intervals"), (chars! "qualifiers")]

/-- `FMI3GetIntervalFraction`, src/FMI3.c 916-925. -/
def FMI3GetIntervalFraction : Wrapper := callArgs (chars! "fmi3") (chars! "GetIntervalFraction") (chars! "valueReferences=0x%p, nValueReferences=%zu, intervalCounters=0x%p, resolutions=0x%p, qualifiers=%d") [(chars! "valueReferences"), (chars! "nValueReferences"), (chars! "intervalCounters"), (chars! "resolutions"), (chars! "qualifiers")]

/-- `FMI3GetShiftDecimal`, src/FMI3.c 927-934. -/
def FMI3GetShiftDecimal : Wrapper := callArgs (chars! "fmi3") (chars! "GetShiftDecimal") (chars! "valueReferences=0x%p, nValueReferences=%zu, shifts=0x%p") [(chars! "valueReferences"), (chars! "nValueReferences"), (chars! "shifts")]

/-- `FMI3GetShiftFraction`, src/FMI3.c 936-944. -/
def FMI3GetShiftFraction : Wrapper := callArgs (chars! "fmi3") (chars! "GetShiftFraction") (chars! "valueReferences=0x%p, nValueReferences=%zu, shiftCounters=0x%p, resolutions=0x%p") [(chars! "valueReferences"), (chars! "nValueReferences"), (chars! "shiftCounters"), (chars! "resolutions")]

/-- `FMI3SetIntervalDecimal`, src/FMI3.c 946-953. -/
def FMI3SetIntervalDecimal : Wrapper := callArgs (chars! "fmi3") (chars! "SetIntervalDecimal") (chars! "valueReferences=0x%p, nValueReferences=%zu, intervals=0x%p") [(chars! "valueReferences"), (chars! "nValueReferences"), (chars! "intervals")]

/-- `FMI3SetIntervalFraction`, src/FMI3.c 955-963. -/
def FMI3SetIntervalFraction : Wrapper := callArgs (chars! "fmi3") (chars! "SetIntervalFraction") (chars! "valueReferences=0x%p, nValueReferences=%zu, intervalCounters=0x%p, resolutions=0x%p") [(chars! "valueReferences"), (chars! "nValueReferences"), (chars! "intervalCounters"), (chars! "resolutions")]

/-- `FMI3SetShiftDecimal`, src/FMI3.c 965-972. -/
def FMI3SetShiftDecimal : Wrapper := callArgs (chars! "fmi3") (chars! "SetShiftDecimal") (chars! "valueReferences=0x%p, nValueReferences=%zu, shifts=0x%p") [(chars! "valueReferences"), (chars! "nValueReferences"), (chars! "shifts")]

/-- `FMI3SetShiftFraction`, src/FMI3.c 974-982. -/
def FMI3SetShiftFraction : Wrapper := callArgs (chars! "fmi3") (chars! "SetShiftFraction") (chars! "valueReferences=0x%p, nValueReferences=%zu, shiftCounters=0x%p, resolutions=0x%p") [(chars! "valueReferences"), (chars! "nValueReferences"), (chars! "shiftCounters"), (chars! "resolutions")]

/-- `FMI3EvaluateDiscreteStates`, src/FMI3.c 984-986. -/
def FMI3EvaluateDiscreteStates : Wrapper := call (chars! "fmi3") (chars! "EvaluateDiscreteStates")

/-- `FMI3UpdateDiscreteStates`, src/FMI3.c 988-1007. -/
def FMI3UpdateDiscreteStates : Wrapper := ⟨(chars! "fmi3UpdateDiscreteStates"), [.text (chars! "fmi3UpdateDiscreteStates(discreteStatesNeedUpdate=%d, terminateSimulation=%d, nominalsOfContinuousStatesChanged=%d, valuesOfContinuousStatesChanged=%d, nextEventTimeDefined=%d, nextEventTime=%.16g)") [.deref (chars! "discreteStatesNeedUpdate"), .deref (chars! "terminateSimulation"), .deref (chars! "nominalsOfContinuousStatesChanged"), .deref (chars! "valuesOfContinuousStatesChanged"), .deref (chars! "nextEventTimeDefined"), .deref (chars! "nextEventTime")]]⟩

/-- `FMI3EnterContinuousTimeMode`, src/FMI3.c 1013-1016. -/
def FMI3EnterContinuousTimeMode : Wrapper := call (chars! "fmi3") (chars! "EnterContinuousTimeMode")

/-- `FMI3CompletedIntegratorStep`, src/FMI3.c 1018-1034. -/
def FMI3CompletedIntegratorStep : Wrapper := ⟨(chars! "fmi3CompletedIntegratorStep"), [.text (chars! "fmi3CompletedIntegratorStep(noSetFMUStatePriorToCurrentPoint=%d, enterEventMode=%d, terminateSimulation=%d)") [.var (chars! "noSetFMUStatePriorToCurrentPoint"), .deref (chars! "enterEventMode"), .deref (chars! "terminateSimulation")]]⟩

/-- `FMI3SetTime`, src/FMI3.c 1037-1039. -/
def FMI3SetTime : Wrapper := callArgs (chars! "fmi3") (chars! "SetTime") (chars! "time=%.16g") [(chars! "time")]

/-- `FMI3SetContinuousStates`, src/FMI3.c 1041-1056. -/
def FMI3SetContinuousStates : Wrapper := ⟨(chars! "fmi3SetContinuousStates"), [.text (chars! "fmi3SetContinuousStates(continuousStates={") [], .array (chars! "continuousStates") (chars! "nContinuousStates") none .float64, .text (chars! "}, nContinuousStates=%zu)") [.var (chars! "nContinuousStates")]]⟩

/-- `FMI3GetContinuousStateDerivatives`, src/FMI3.c 1059-1074. -/
def FMI3GetContinuousStateDerivatives : Wrapper := ⟨(chars! "fmi3GetContinuousStateDerivatives"), [.text (chars! "fmi3GetContinuousStateDerivatives(derivatives={") [], .array (chars! "derivatives") (chars! "nContinuousStates") none .float64, .text (chars! "}, nContinuousStates=%zu)") [.var (chars! "nContinuousStates")]]⟩

/-- `FMI3GetEventIndicators`, src/FMI3.c 1076-1091. -/
def FMI3GetEventIndicators : Wrapper := ⟨(chars! "fmi3GetEventIndicators"), [.text (chars! "fmi3GetEventIndicators(eventIndicators={") [], .array (chars! "eventIndicators") (chars! "nEventIndicators") none .float64, .text (chars! "}, nEventIndicators=%zu)") [.var (chars! "nEventIndicators")]]⟩

/-- `FMI3GetContinuousStates`, src/FMI3.c 1093-1108. -/
def FMI3GetContinuousStates : Wrapper := ⟨(chars! "fmi3GetContinuousStates"), [.text (chars! "fmi3GetContinuousStates(continuousStates={") [], .array (chars! "continuousStates") (chars! "nContinuousStates") none .float64, .text (chars! "}, nContinuousStates=%zu)") [.var (chars! "nContinuousStates")]]⟩

/-- `FMI3GetNominalsOfContinuousStates`, src/FMI3.c 1110-1125. -/
def FMI3GetNominalsOfContinuousStates : Wrapper := ⟨(chars! "fmi3GetNominalsOfContinuousStates"), [.text (chars! "fmi3GetNominalsOfContinuousStates(nominals={") [], .array (chars! "nominals") (chars! "nContinuousStates") none .float64, .text (chars! "}, nContinuousStates=%zu)") [.var (chars! "nContinuousStates")]]⟩

/-- `FMI3GetNumberOfEventIndicators`, src/FMI3.c 1128-1131. -/
def FMI3GetNumberOfEventIndicators : Wrapper := callArgs (chars! "fmi3") (chars! "GetNumberOfEventIndicators") (chars! "nEventIndicators=%zu") [(chars! "nEventIndicators")]

/-- `FMI3GetNumberOfContinuousStates`, src/FMI3.c 1133-1136. -/
def FMI3GetNumberOfContinuousStates : Wrapper := callArgs (chars! "fmi3") (chars! "GetNumberOfContinuousStates") (chars! "nContinuousStates=%zu") [(chars! "nContinuousStates")]

/-- `FMI3EnterStepMode`, src/FMI3.c 1144-1146. -/
def FMI3EnterStepMode : Wrapper := call (chars! "fmi3") (chars! "EnterStepMode")

/-- `FMI3GetOutputDerivatives`, src/FMI3.c 1148-1157. -/
def FMI3GetOutputDerivatives : Wrapper := callArgs (chars! "fmi3") (chars! "GetOutputDerivatives") (chars! "valueReferences=0x%p, nValueReferences=%zu, orders=0x%p, values=0x%p, nValues=%zu") [(chars! "valueReferences"), (chars! "nValueReferences"), (chars! "orders"), (chars! "values"), (chars! "nValues")]

/-- `FMI3DoStep`, src/FMI3.c 1159-1179. -/
def FMI3DoStep : Wrapper := ⟨(chars! "fmi3DoStep"), [.text (chars! "fmi3DoStep(currentCommunicationPoint=%.16g, communicationStepSize=%.16g, noSetFMUStatePriorToCurrentPoint=%d, eventHandlingNeeded=%d, terminateSimulation=%d, earlyReturn=%d, lastSuccessfulTime=%.16g)") [.var (chars! "currentCommunicationPoint"), .var (chars! "communicationStepSize"), .var (chars! "noSetFMUStatePriorToCurrentPoint"), .deref (chars! "eventHandlingNeeded"), .deref (chars! "terminateSimulation"), .deref (chars! "earlyReturn"), .deref (chars! "lastSuccessfulTime")]]⟩

/-- `FMI3ActivateModelPartition`, src/FMI3.c 1181-1187. -/
def FMI3ActivateModelPartition : Wrapper := callArgs (chars! "fmi3") (chars! "ActivateModelPartition") (chars! "clockReference=%u, activationTime=%.16g") [(chars! "clockReference"), (chars! "activationTime")]

/-- The wrapper functions of src/FMI2.c 102-609. -/
def wrappers2 : List Wrapper := [
  FMI2GetTypesPlatform, FMI2GetVersion, FMI2SetDebugLogging, FMI2Instantiate, FMI2FreeInstance, FMI2SetupExperiment, FMI2EnterInitializationMode,
  FMI2ExitInitializationMode, FMI2Terminate, FMI2Reset, FMI2GetReal, FMI2GetInteger, FMI2GetBoolean,
  FMI2GetString, FMI2SetReal, FMI2SetInteger, FMI2SetBoolean, FMI2SetString, FMI2GetFMUstate,
  FMI2SetFMUstate, FMI2FreeFMUstate, FMI2SerializedFMUstateSize, FMI2SerializeFMUstate, FMI2DeSerializeFMUstate, FMI2GetDirectionalDerivative,
  FMI2EnterEventMode, FMI2NewDiscreteStates, FMI2EnterContinuousTimeMode, FMI2CompletedIntegratorStep, FMI2SetTime, FMI2SetContinuousStates, FMI2GetDerivatives,
  FMI2GetEventIndicators, FMI2GetContinuousStates, FMI2GetNominalsOfContinuousStates, FMI2SetRealInputDerivatives, FMI2GetRealOutputDerivatives, FMI2DoStep,
  FMI2CancelStep, FMI2GetStatus, FMI2GetRealStatus, FMI2GetIntegerStatus, FMI2GetBooleanStatus, FMI2GetStringStatus]

/-- The wrapper functions of src/FMI3.c 97-1187. -/
def wrappers3 : List Wrapper := [
  FMI3GetVersion, FMI3SetDebugLogging, FMI3InstantiateModelExchange, FMI3InstantiateCoSimulation, FMI3InstantiateScheduledExecution, FMI3FreeInstance,
  FMI3EnterInitializationMode, FMI3ExitInitializationMode, FMI3EnterEventMode, FMI3Terminate, FMI3Reset, FMI3GetFloat32,
  FMI3GetFloat64, FMI3GetInt8, FMI3GetUInt8, FMI3GetInt16, FMI3GetUInt16, FMI3GetInt32,
  FMI3GetUInt32, FMI3GetInt64, FMI3GetUInt64, FMI3GetBoolean, FMI3GetString, FMI3GetBinary,
  FMI3GetClock, FMI3SetFloat32, FMI3SetFloat64, FMI3SetInt8, FMI3SetUInt8, FMI3SetInt16,
  FMI3SetUInt16, FMI3SetInt32, FMI3SetUInt32, FMI3SetInt64, FMI3SetUInt64, FMI3SetBoolean,
  FMI3SetString, FMI3SetBinary, FMI3SetClock, FMI3GetNumberOfVariableDependencies, FMI3GetVariableDependencies, FMI3GetFMUState,
  FMI3SetFMUState, FMI3FreeFMUState, FMI3SerializedFMUStateSize, FMI3SerializeFMUState, FMI3DeserializeFMUState, FMI3GetDirectionalDerivative,
  FMI3GetAdjointDerivative, FMI3EnterConfigurationMode, FMI3ExitConfigurationMode, FMI3GetIntervalDecimal, FMI3GetIntervalFraction, FMI3GetShiftDecimal,
  FMI3GetShiftFraction, FMI3SetIntervalDecimal, FMI3SetIntervalFraction, FMI3SetShiftDecimal, FMI3SetShiftFraction, FMI3EvaluateDiscreteStates,
  FMI3UpdateDiscreteStates, FMI3EnterContinuousTimeMode, FMI3CompletedIntegratorStep, FMI3SetTime, FMI3SetContinuousStates, FMI3GetContinuousStateDerivatives,
  FMI3GetEventIndicators, FMI3GetContinuousStates, FMI3GetNominalsOfContinuousStates, FMI3GetNumberOfEventIndicators, FMI3GetNumberOfContinuousStates, FMI3EnterStepMode,
  FMI3GetOutputDerivatives, FMI3DoStep, FMI3ActivateModelPartition]

end Verif.Importer.CallLog
