import Verif.Spec.CallLog

/-!
# Specification: the parameters of the functions of the FMI
-/

namespace Verif.Spec.CallLog
open Importer.CallLog

/-- The functions of FMI 2.0 with their parameters, without the instance (include/FMI2.h). -/
def signatures2 : List (Name × List Param) := [
  ((chars! "fmi2GetTypesPlatform"), []),
  ((chars! "fmi2GetVersion"), []),
  ((chars! "fmi2SetDebugLogging"), [⟨(chars! "loggingOn"), .scalar .int⟩, ⟨(chars! "nCategories"), .scalar .size⟩, ⟨(chars! "categories"), .array .string (chars! "nCategories") none⟩]),
  ((chars! "fmi2Instantiate"), [⟨(chars! "instanceName"), .scalar .string⟩, ⟨(chars! "fmuType"), .scalar .int⟩, ⟨(chars! "fmuGUID"), .scalar .string⟩, ⟨(chars! "fmuResourceLocation"), .scalar .string⟩, ⟨(chars! "functions"), .struct [((chars! "logger"), .pointer), ((chars! "allocateMemory"), .pointer), ((chars! "freeMemory"), .pointer), ((chars! "stepFinished"), .pointer), ((chars! "componentEnvironment"), .pointer)]⟩, ⟨(chars! "visible"), .scalar .int⟩, ⟨(chars! "loggingOn"), .scalar .int⟩]),
  ((chars! "fmi2FreeInstance"), []),
  ((chars! "fmi2SetupExperiment"), [⟨(chars! "toleranceDefined"), .scalar .int⟩, ⟨(chars! "tolerance"), .scalar .double⟩, ⟨(chars! "startTime"), .scalar .double⟩, ⟨(chars! "stopTimeDefined"), .scalar .int⟩, ⟨(chars! "stopTime"), .scalar .double⟩]),
  ((chars! "fmi2EnterInitializationMode"), []),
  ((chars! "fmi2ExitInitializationMode"), []),
  ((chars! "fmi2Terminate"), []),
  ((chars! "fmi2Reset"), []),
  ((chars! "fmi2GetReal"), [⟨(chars! "vr"), .array .valueReference (chars! "nvr") none⟩, ⟨(chars! "nvr"), .scalar .size⟩, ⟨(chars! "value"), .array .float64 (chars! "nvr") none⟩]),
  ((chars! "fmi2GetInteger"), [⟨(chars! "vr"), .array .valueReference (chars! "nvr") none⟩, ⟨(chars! "nvr"), .scalar .size⟩, ⟨(chars! "value"), .array .int32 (chars! "nvr") none⟩]),
  ((chars! "fmi2GetBoolean"), [⟨(chars! "vr"), .array .valueReference (chars! "nvr") none⟩, ⟨(chars! "nvr"), .scalar .size⟩, ⟨(chars! "value"), .array .boolean (chars! "nvr") none⟩]),
  ((chars! "fmi2GetString"), [⟨(chars! "vr"), .array .valueReference (chars! "nvr") none⟩, ⟨(chars! "nvr"), .scalar .size⟩, ⟨(chars! "value"), .array .string (chars! "nvr") none⟩]),
  ((chars! "fmi2SetReal"), [⟨(chars! "vr"), .array .valueReference (chars! "nvr") none⟩, ⟨(chars! "nvr"), .scalar .size⟩, ⟨(chars! "value"), .array .float64 (chars! "nvr") none⟩]),
  ((chars! "fmi2SetInteger"), [⟨(chars! "vr"), .array .valueReference (chars! "nvr") none⟩, ⟨(chars! "nvr"), .scalar .size⟩, ⟨(chars! "value"), .array .int32 (chars! "nvr") none⟩]),
  ((chars! "fmi2SetBoolean"), [⟨(chars! "vr"), .array .valueReference (chars! "nvr") none⟩, ⟨(chars! "nvr"), .scalar .size⟩, ⟨(chars! "value"), .array .boolean (chars! "nvr") none⟩]),
  ((chars! "fmi2SetString"), [⟨(chars! "vr"), .array .valueReference (chars! "nvr") none⟩, ⟨(chars! "nvr"), .scalar .size⟩, ⟨(chars! "value"), .array .string (chars! "nvr") none⟩]),
  ((chars! "fmi2GetFMUstate"), [⟨(chars! "FMUstate"), .out .pointer⟩]),
  ((chars! "fmi2SetFMUstate"), [⟨(chars! "FMUstate"), .scalar .pointer⟩]),
  ((chars! "fmi2FreeFMUstate"), [⟨(chars! "FMUstate"), .out .pointer⟩]),
  ((chars! "fmi2SerializedFMUstateSize"), [⟨(chars! "FMUstate"), .scalar .pointer⟩, ⟨(chars! "size"), .out .size⟩]),
  ((chars! "fmi2SerializeFMUstate"), [⟨(chars! "FMUstate"), .scalar .pointer⟩, ⟨(chars! "serializedState"), .array .other (chars! "size") none⟩, ⟨(chars! "size"), .scalar .size⟩]),
  ((chars! "fmi2DeSerializeFMUstate"), [⟨(chars! "serializedState"), .array .other (chars! "size") none⟩, ⟨(chars! "size"), .scalar .size⟩, ⟨(chars! "FMUstate"), .out .pointer⟩]),
  ((chars! "fmi2GetDirectionalDerivative"), [⟨(chars! "vUnknown_ref"), .array .valueReference (chars! "nUnknown") none⟩, ⟨(chars! "nUnknown"), .scalar .size⟩, ⟨(chars! "vKnown_ref"), .array .valueReference (chars! "nKnown") none⟩, ⟨(chars! "nKnown"), .scalar .size⟩, ⟨(chars! "dvKnown"), .array .float64 (chars! "nKnown") none⟩, ⟨(chars! "dvUnknown"), .array .float64 (chars! "nUnknown") none⟩]),
  ((chars! "fmi2EnterEventMode"), []),
  ((chars! "fmi2NewDiscreteStates"), [⟨(chars! "eventInfo"), .struct [((chars! "newDiscreteStatesNeeded"), .int), ((chars! "terminateSimulation"), .int), ((chars! "nominalsOfContinuousStatesChanged"), .int), ((chars! "valuesOfContinuousStatesChanged"), .int), ((chars! "nextEventTimeDefined"), .int), ((chars! "nextEventTime"), .double)]⟩]),
  ((chars! "fmi2EnterContinuousTimeMode"), []),
  ((chars! "fmi2CompletedIntegratorStep"), [⟨(chars! "noSetFMUStatePriorToCurrentPoint"), .scalar .int⟩, ⟨(chars! "enterEventMode"), .out .int⟩, ⟨(chars! "terminateSimulation"), .out .int⟩]),
  ((chars! "fmi2SetTime"), [⟨(chars! "time"), .scalar .double⟩]),
  ((chars! "fmi2SetContinuousStates"), [⟨(chars! "x"), .array .float64 (chars! "nx") none⟩, ⟨(chars! "nx"), .scalar .size⟩]),
  ((chars! "fmi2GetDerivatives"), [⟨(chars! "derivatives"), .array .float64 (chars! "nx") none⟩, ⟨(chars! "nx"), .scalar .size⟩]),
  ((chars! "fmi2GetEventIndicators"), [⟨(chars! "eventIndicators"), .array .float64 (chars! "ni") none⟩, ⟨(chars! "ni"), .scalar .size⟩]),
  ((chars! "fmi2GetContinuousStates"), [⟨(chars! "x"), .array .float64 (chars! "nx") none⟩, ⟨(chars! "nx"), .scalar .size⟩]),
  ((chars! "fmi2GetNominalsOfContinuousStates"), [⟨(chars! "x_nominal"), .array .float64 (chars! "nx") none⟩, ⟨(chars! "nx"), .scalar .size⟩]),
  ((chars! "fmi2SetRealInputDerivatives"), [⟨(chars! "vr"), .array .valueReference (chars! "nvr") none⟩, ⟨(chars! "nvr"), .scalar .size⟩, ⟨(chars! "order"), .array .int32 (chars! "nvr") none⟩, ⟨(chars! "value"), .array .float64 (chars! "nvr") none⟩]),
  ((chars! "fmi2GetRealOutputDerivatives"), [⟨(chars! "vr"), .array .valueReference (chars! "nvr") none⟩, ⟨(chars! "nvr"), .scalar .size⟩, ⟨(chars! "order"), .array .int32 (chars! "nvr") none⟩, ⟨(chars! "value"), .array .float64 (chars! "nvr") none⟩]),
  ((chars! "fmi2DoStep"), [⟨(chars! "currentCommunicationPoint"), .scalar .double⟩, ⟨(chars! "communicationStepSize"), .scalar .double⟩, ⟨(chars! "noSetFMUStatePriorToCurrentPoint"), .scalar .int⟩]),
  ((chars! "fmi2CancelStep"), []),
  ((chars! "fmi2GetStatus"), [⟨(chars! "s"), .scalar .int⟩, ⟨(chars! "value"), .out .int⟩]),
  ((chars! "fmi2GetRealStatus"), [⟨(chars! "s"), .scalar .int⟩, ⟨(chars! "value"), .out .double⟩]),
  ((chars! "fmi2GetIntegerStatus"), [⟨(chars! "s"), .scalar .int⟩, ⟨(chars! "value"), .out .int⟩]),
  ((chars! "fmi2GetBooleanStatus"), [⟨(chars! "s"), .scalar .int⟩, ⟨(chars! "value"), .out .int⟩]),
  ((chars! "fmi2GetStringStatus"), [⟨(chars! "s"), .scalar .int⟩, ⟨(chars! "value"), .out .string⟩])]

/-- The functions of FMI 3.0 with their parameters, without the instance (include/FMI3.h, include/fmi3FunctionTypes.h 128-164). -/
def signatures3 : List (Name × List Param) := [
  ((chars! "fmi3GetVersion"), []),
  ((chars! "fmi3SetDebugLogging"), [⟨(chars! "loggingOn"), .scalar .int⟩, ⟨(chars! "nCategories"), .scalar .size⟩, ⟨(chars! "categories"), .array .string (chars! "nCategories") none⟩]),
  ((chars! "fmi3InstantiateModelExchange"), [⟨(chars! "instanceName"), .scalar .string⟩, ⟨(chars! "instantiationToken"), .scalar .string⟩, ⟨(chars! "resourcePath"), .scalar .string⟩, ⟨(chars! "visible"), .scalar .int⟩, ⟨(chars! "loggingOn"), .scalar .int⟩, ⟨(chars! "instanceEnvironment"), .scalar .pointer⟩, ⟨(chars! "logMessage"), .scalar .pointer⟩]),
  ((chars! "fmi3InstantiateCoSimulation"), [⟨(chars! "instanceName"), .scalar .string⟩, ⟨(chars! "instantiationToken"), .scalar .string⟩, ⟨(chars! "resourcePath"), .scalar .string⟩, ⟨(chars! "visible"), .scalar .int⟩, ⟨(chars! "loggingOn"), .scalar .int⟩, ⟨(chars! "eventModeUsed"), .scalar .int⟩, ⟨(chars! "earlyReturnAllowed"), .scalar .int⟩, ⟨(chars! "requiredIntermediateVariables"), .array .valueReference (chars! "nRequiredIntermediateVariables") none⟩, ⟨(chars! "nRequiredIntermediateVariables"), .scalar .size⟩, ⟨(chars! "instanceEnvironment"), .scalar .pointer⟩, ⟨(chars! "logMessage"), .scalar .pointer⟩, ⟨(chars! "intermediateUpdate"), .scalar .pointer⟩]),
  ((chars! "fmi3InstantiateScheduledExecution"), [⟨(chars! "instanceName"), .scalar .string⟩, ⟨(chars! "instantiationToken"), .scalar .string⟩, ⟨(chars! "resourcePath"), .scalar .string⟩, ⟨(chars! "visible"), .scalar .int⟩, ⟨(chars! "loggingOn"), .scalar .int⟩, ⟨(chars! "instanceEnvironment"), .scalar .pointer⟩, ⟨(chars! "logMessage"), .scalar .pointer⟩, ⟨(chars! "clockUpdate"), .scalar .pointer⟩, ⟨(chars! "lockPreemption"), .scalar .pointer⟩, ⟨(chars! "unlockPreemption"), .scalar .pointer⟩]),
  ((chars! "fmi3FreeInstance"), []),
  ((chars! "fmi3EnterInitializationMode"), [⟨(chars! "toleranceDefined"), .scalar .int⟩, ⟨(chars! "tolerance"), .scalar .double⟩, ⟨(chars! "startTime"), .scalar .double⟩, ⟨(chars! "stopTimeDefined"), .scalar .int⟩, ⟨(chars! "stopTime"), .scalar .double⟩]),
  ((chars! "fmi3ExitInitializationMode"), []),
  ((chars! "fmi3EnterEventMode"), []),
  ((chars! "fmi3Terminate"), []),
  ((chars! "fmi3Reset"), []),
  ((chars! "fmi3GetFloat32"), [⟨(chars! "valueReferences"), .array .valueReference (chars! "nValueReferences") none⟩, ⟨(chars! "nValueReferences"), .scalar .size⟩, ⟨(chars! "values"), .array .float32 (chars! "nValues") none⟩, ⟨(chars! "nValues"), .scalar .size⟩]),
  ((chars! "fmi3GetFloat64"), [⟨(chars! "valueReferences"), .array .valueReference (chars! "nValueReferences") none⟩, ⟨(chars! "nValueReferences"), .scalar .size⟩, ⟨(chars! "values"), .array .float64 (chars! "nValues") none⟩, ⟨(chars! "nValues"), .scalar .size⟩]),
  ((chars! "fmi3GetInt8"), [⟨(chars! "valueReferences"), .array .valueReference (chars! "nValueReferences") none⟩, ⟨(chars! "nValueReferences"), .scalar .size⟩, ⟨(chars! "values"), .array .int8 (chars! "nValues") none⟩, ⟨(chars! "nValues"), .scalar .size⟩]),
  ((chars! "fmi3GetUInt8"), [⟨(chars! "valueReferences"), .array .valueReference (chars! "nValueReferences") none⟩, ⟨(chars! "nValueReferences"), .scalar .size⟩, ⟨(chars! "values"), .array .uint8 (chars! "nValues") none⟩, ⟨(chars! "nValues"), .scalar .size⟩]),
  ((chars! "fmi3GetInt16"), [⟨(chars! "valueReferences"), .array .valueReference (chars! "nValueReferences") none⟩, ⟨(chars! "nValueReferences"), .scalar .size⟩, ⟨(chars! "values"), .array .int16 (chars! "nValues") none⟩, ⟨(chars! "nValues"), .scalar .size⟩]),
  ((chars! "fmi3GetUInt16"), [⟨(chars! "valueReferences"), .array .valueReference (chars! "nValueReferences") none⟩, ⟨(chars! "nValueReferences"), .scalar .size⟩, ⟨(chars! "values"), .array .uint16 (chars! "nValues") none⟩, ⟨(chars! "nValues"), .scalar .size⟩]),
  ((chars! "fmi3GetInt32"), [⟨(chars! "valueReferences"), .array .valueReference (chars! "nValueReferences") none⟩, ⟨(chars! "nValueReferences"), .scalar .size⟩, ⟨(chars! "values"), .array .int32 (chars! "nValues") none⟩, ⟨(chars! "nValues"), .scalar .size⟩]),
  ((chars! "fmi3GetUInt32"), [⟨(chars! "valueReferences"), .array .valueReference (chars! "nValueReferences") none⟩, ⟨(chars! "nValueReferences"), .scalar .size⟩, ⟨(chars! "values"), .array .uint32 (chars! "nValues") none⟩, ⟨(chars! "nValues"), .scalar .size⟩]),
  ((chars! "fmi3GetInt64"), [⟨(chars! "valueReferences"), .array .valueReference (chars! "nValueReferences") none⟩, ⟨(chars! "nValueReferences"), .scalar .size⟩, ⟨(chars! "values"), .array .int64 (chars! "nValues") none⟩, ⟨(chars! "nValues"), .scalar .size⟩]),
  ((chars! "fmi3GetUInt64"), [⟨(chars! "valueReferences"), .array .valueReference (chars! "nValueReferences") none⟩, ⟨(chars! "nValueReferences"), .scalar .size⟩, ⟨(chars! "values"), .array .uint64 (chars! "nValues") none⟩, ⟨(chars! "nValues"), .scalar .size⟩]),
  ((chars! "fmi3GetBoolean"), [⟨(chars! "valueReferences"), .array .valueReference (chars! "nValueReferences") none⟩, ⟨(chars! "nValueReferences"), .scalar .size⟩, ⟨(chars! "values"), .array .boolean (chars! "nValues") none⟩, ⟨(chars! "nValues"), .scalar .size⟩]),
  ((chars! "fmi3GetString"), [⟨(chars! "valueReferences"), .array .valueReference (chars! "nValueReferences") none⟩, ⟨(chars! "nValueReferences"), .scalar .size⟩, ⟨(chars! "values"), .array .string (chars! "nValues") none⟩, ⟨(chars! "nValues"), .scalar .size⟩]),
  ((chars! "fmi3GetBinary"), [⟨(chars! "valueReferences"), .array .valueReference (chars! "nValueReferences") none⟩, ⟨(chars! "nValueReferences"), .scalar .size⟩, ⟨(chars! "sizes"), .array .sizeT (chars! "nValues") none⟩, ⟨(chars! "values"), .array .binary (chars! "nValues") (some (chars! "sizes"))⟩, ⟨(chars! "nValues"), .scalar .size⟩]),
  ((chars! "fmi3GetClock"), [⟨(chars! "valueReferences"), .array .valueReference (chars! "nValueReferences") none⟩, ⟨(chars! "nValueReferences"), .scalar .size⟩, ⟨(chars! "values"), .array .clock (chars! "nValueReferences") none⟩]),
  ((chars! "fmi3SetFloat32"), [⟨(chars! "valueReferences"), .array .valueReference (chars! "nValueReferences") none⟩, ⟨(chars! "nValueReferences"), .scalar .size⟩, ⟨(chars! "values"), .array .float32 (chars! "nValues") none⟩, ⟨(chars! "nValues"), .scalar .size⟩]),
  ((chars! "fmi3SetFloat64"), [⟨(chars! "valueReferences"), .array .valueReference (chars! "nValueReferences") none⟩, ⟨(chars! "nValueReferences"), .scalar .size⟩, ⟨(chars! "values"), .array .float64 (chars! "nValues") none⟩, ⟨(chars! "nValues"), .scalar .size⟩]),
  ((chars! "fmi3SetInt8"), [⟨(chars! "valueReferences"), .array .valueReference (chars! "nValueReferences") none⟩, ⟨(chars! "nValueReferences"), .scalar .size⟩, ⟨(chars! "values"), .array .int8 (chars! "nValues") none⟩, ⟨(chars! "nValues"), .scalar .size⟩]),
  ((chars! "fmi3SetUInt8"), [⟨(chars! "valueReferences"), .array .valueReference (chars! "nValueReferences") none⟩, ⟨(chars! "nValueReferences"), .scalar .size⟩, ⟨(chars! "values"), .array .uint8 (chars! "nValues") none⟩, ⟨(chars! "nValues"), .scalar .size⟩]),
  ((chars! "fmi3SetInt16"), [⟨(chars! "valueReferences"), .array .valueReference (chars! "nValueReferences") none⟩, ⟨(chars! "nValueReferences"), .scalar .size⟩, ⟨(chars! "values"), .array .int16 (chars! "nValues") none⟩, ⟨(chars! "nValues"), .scalar .size⟩]),
  ((chars! "fmi3SetUInt16"), [⟨(chars! "valueReferences"), .array .valueReference (chars! "nValueReferences") none⟩, ⟨(chars! "nValueReferences"), .scalar .size⟩, ⟨(chars! "values"), .array .uint16 (chars! "nValues") none⟩, ⟨(chars! "nValues"), .scalar .size⟩]),
  ((chars! "fmi3SetInt32"), [⟨(chars! "valueReferences"), .array .valueReference (chars! "nValueReferences") none⟩, ⟨(chars! "nValueReferences"), .scalar .size⟩, ⟨(chars! "values"), .array .int32 (chars! "nValues") none⟩, ⟨(chars! "nValues"), .scalar .size⟩]),
  ((chars! "fmi3SetUInt32"), [⟨(chars! "valueReferences"), .array .valueReference (chars! "nValueReferences") none⟩, ⟨(chars! "nValueReferences"), .scalar .size⟩, ⟨(chars! "values"), .array .uint32 (chars! "nValues") none⟩, ⟨(chars! "nValues"), .scalar .size⟩]),
  ((chars! "fmi3SetInt64"), [⟨(chars! "valueReferences"), .array .valueReference (chars! "nValueReferences") none⟩, ⟨(chars! "nValueReferences"), .scalar .size⟩, ⟨(chars! "values"), .array .int64 (chars! "nValues") none⟩, ⟨(chars! "nValues"), .scalar .size⟩]),
  ((chars! "fmi3SetUInt64"), [⟨(chars! "valueReferences"), .array .valueReference (chars! "nValueReferences") none⟩, ⟨(chars! "nValueReferences"), .scalar .size⟩, ⟨(chars! "values"), .array .uint64 (chars! "nValues") none⟩, ⟨(chars! "nValues"), .scalar .size⟩]),
  ((chars! "fmi3SetBoolean"), [⟨(chars! "valueReferences"), .array .valueReference (chars! "nValueReferences") none⟩, ⟨(chars! "nValueReferences"), .scalar .size⟩, ⟨(chars! "values"), .array .boolean (chars! "nValues") none⟩, ⟨(chars! "nValues"), .scalar .size⟩]),
  ((chars! "fmi3SetString"), [⟨(chars! "valueReferences"), .array .valueReference (chars! "nValueReferences") none⟩, ⟨(chars! "nValueReferences"), .scalar .size⟩, ⟨(chars! "values"), .array .string (chars! "nValues") none⟩, ⟨(chars! "nValues"), .scalar .size⟩]),
  ((chars! "fmi3SetBinary"), [⟨(chars! "valueReferences"), .array .valueReference (chars! "nValueReferences") none⟩, ⟨(chars! "nValueReferences"), .scalar .size⟩, ⟨(chars! "sizes"), .array .sizeT (chars! "nValues") none⟩, ⟨(chars! "values"), .array .binary (chars! "nValues") (some (chars! "sizes"))⟩, ⟨(chars! "nValues"), .scalar .size⟩]),
  ((chars! "fmi3SetClock"), [⟨(chars! "valueReferences"), .array .valueReference (chars! "nValueReferences") none⟩, ⟨(chars! "nValueReferences"), .scalar .size⟩, ⟨(chars! "values"), .array .clock (chars! "nValueReferences") none⟩]),
  ((chars! "fmi3GetNumberOfVariableDependencies"), [⟨(chars! "valueReference"), .scalar .uint⟩, ⟨(chars! "nDependencies"), .out .size⟩]),
  ((chars! "fmi3GetVariableDependencies"), [⟨(chars! "dependent"), .scalar .uint⟩, ⟨(chars! "elementIndicesOfDependent"), .array .sizeT (chars! "nDependencies") none⟩, ⟨(chars! "independents"), .array .valueReference (chars! "nDependencies") none⟩, ⟨(chars! "elementIndicesOfIndependents"), .array .sizeT (chars! "nDependencies") none⟩, ⟨(chars! "dependencyKinds"), .array .other (chars! "nDependencies") none⟩, ⟨(chars! "nDependencies"), .scalar .size⟩]),
  ((chars! "fmi3GetFMUState"), [⟨(chars! "FMUState"), .out .pointer⟩]),
  ((chars! "fmi3SetFMUState"), [⟨(chars! "FMUState"), .scalar .pointer⟩]),
  ((chars! "fmi3FreeFMUState"), [⟨(chars! "FMUState"), .out .pointer⟩]),
  ((chars! "fmi3SerializedFMUStateSize"), [⟨(chars! "FMUState"), .scalar .pointer⟩, ⟨(chars! "size"), .out .size⟩]),
  ((chars! "fmi3SerializeFMUState"), [⟨(chars! "FMUState"), .scalar .pointer⟩, ⟨(chars! "serializedState"), .array .other (chars! "size") none⟩, ⟨(chars! "size"), .scalar .size⟩]),
  ((chars! "fmi3DeserializeFMUState"), [⟨(chars! "serializedState"), .array .other (chars! "size") none⟩, ⟨(chars! "size"), .scalar .size⟩, ⟨(chars! "FMUState"), .out .pointer⟩]),
  ((chars! "fmi3GetDirectionalDerivative"), [⟨(chars! "unknowns"), .array .valueReference (chars! "nUnknowns") none⟩, ⟨(chars! "nUnknowns"), .scalar .size⟩, ⟨(chars! "knowns"), .array .valueReference (chars! "nKnowns") none⟩, ⟨(chars! "nKnowns"), .scalar .size⟩, ⟨(chars! "seed"), .array .float64 (chars! "nSeed") none⟩, ⟨(chars! "nSeed"), .scalar .size⟩, ⟨(chars! "sensitivity"), .array .float64 (chars! "nSensitivity") none⟩, ⟨(chars! "nSensitivity"), .scalar .size⟩]),
  ((chars! "fmi3GetAdjointDerivative"), [⟨(chars! "unknowns"), .array .valueReference (chars! "nUnknowns") none⟩, ⟨(chars! "nUnknowns"), .scalar .size⟩, ⟨(chars! "knowns"), .array .valueReference (chars! "nKnowns") none⟩, ⟨(chars! "nKnowns"), .scalar .size⟩, ⟨(chars! "seed"), .array .float64 (chars! "nSeed") none⟩, ⟨(chars! "nSeed"), .scalar .size⟩, ⟨(chars! "sensitivity"), .array .float64 (chars! "nSensitivity") none⟩, ⟨(chars! "nSensitivity"), .scalar .size⟩]),
  ((chars! "fmi3EnterConfigurationMode"), []),
  ((chars! "fmi3ExitConfigurationMode"), []),
  ((chars! "fmi3GetIntervalDecimal"), [⟨(chars! "valueReferences"), .array .valueReference (chars! "nValueReferences") none⟩, ⟨(chars! "nValueReferences"), .scalar .size⟩, ⟨(chars! "intervals"), .array .float64 (chars! "nValueReferences") none⟩, ⟨(chars! "qualifiers"), .array .other (chars! "nValueReferences") none⟩]),
  ((chars! "fmi3GetIntervalFraction"), [⟨(chars! "valueReferences"), .array .valueReference (chars! "nValueReferences") none⟩, ⟨(chars! "nValueReferences"), .scalar .size⟩, ⟨(chars! "intervalCounters"), .array .uint64 (chars! "nValueReferences") none⟩, ⟨(chars! "resolutions"), .array .uint64 (chars! "nValueReferences") none⟩, ⟨(chars! "qualifiers"), .array .other (chars! "nValueReferences") none⟩]),
  ((chars! "fmi3GetShiftDecimal"), [⟨(chars! "valueReferences"), .array .valueReference (chars! "nValueReferences") none⟩, ⟨(chars! "nValueReferences"), .scalar .size⟩, ⟨(chars! "shifts"), .array .float64 (chars! "nValueReferences") none⟩]),
  ((chars! "fmi3GetShiftFraction"), [⟨(chars! "valueReferences"), .array .valueReference (chars! "nValueReferences") none⟩, ⟨(chars! "nValueReferences"), .scalar .size⟩, ⟨(chars! "shiftCounters"), .array .uint64 (chars! "nValueReferences") none⟩, ⟨(chars! "resolutions"), .array .uint64 (chars! "nValueReferences") none⟩]),
  ((chars! "fmi3SetIntervalDecimal"), [⟨(chars! "valueReferences"), .array .valueReference (chars! "nValueReferences") none⟩, ⟨(chars! "nValueReferences"), .scalar .size⟩, ⟨(chars! "intervals"), .array .float64 (chars! "nValueReferences") none⟩]),
  ((chars! "fmi3SetIntervalFraction"), [⟨(chars! "valueReferences"), .array .valueReference (chars! "nValueReferences") none⟩, ⟨(chars! "nValueReferences"), .scalar .size⟩, ⟨(chars! "intervalCounters"), .array .uint64 (chars! "nValueReferences") none⟩, ⟨(chars! "resolutions"), .array .uint64 (chars! "nValueReferences") none⟩]),
  ((chars! "fmi3SetShiftDecimal"), [⟨(chars! "valueReferences"), .array .valueReference (chars! "nValueReferences") none⟩, ⟨(chars! "nValueReferences"), .scalar .size⟩, ⟨(chars! "shifts"), .array .float64 (chars! "nValueReferences") none⟩]),
  ((chars! "fmi3SetShiftFraction"), [⟨(chars! "valueReferences"), .array .valueReference (chars! "nValueReferences") none⟩, ⟨(chars! "nValueReferences"), .scalar .size⟩, ⟨(chars! "shiftCounters"), .array .uint64 (chars! "nValueReferences") none⟩, ⟨(chars! "resolutions"), .array .uint64 (chars! "nValueReferences") none⟩]),
  ((chars! "fmi3EvaluateDiscreteStates"), []),
  ((chars! "fmi3UpdateDiscreteStates"), [⟨(chars! "discreteStatesNeedUpdate"), .out .int⟩, ⟨(chars! "terminateSimulation"), .out .int⟩, ⟨(chars! "nominalsOfContinuousStatesChanged"), .out .int⟩, ⟨(chars! "valuesOfContinuousStatesChanged"), .out .int⟩, ⟨(chars! "nextEventTimeDefined"), .out .int⟩, ⟨(chars! "nextEventTime"), .out .double⟩]),
  ((chars! "fmi3EnterContinuousTimeMode"), []),
  ((chars! "fmi3CompletedIntegratorStep"), [⟨(chars! "noSetFMUStatePriorToCurrentPoint"), .scalar .int⟩, ⟨(chars! "enterEventMode"), .out .int⟩, ⟨(chars! "terminateSimulation"), .out .int⟩]),
  ((chars! "fmi3SetTime"), [⟨(chars! "time"), .scalar .double⟩]),
  ((chars! "fmi3SetContinuousStates"), [⟨(chars! "continuousStates"), .array .float64 (chars! "nContinuousStates") none⟩, ⟨(chars! "nContinuousStates"), .scalar .size⟩]),
  ((chars! "fmi3GetContinuousStateDerivatives"), [⟨(chars! "derivatives"), .array .float64 (chars! "nContinuousStates") none⟩, ⟨(chars! "nContinuousStates"), .scalar .size⟩]),
  ((chars! "fmi3GetEventIndicators"), [⟨(chars! "eventIndicators"), .array .float64 (chars! "nEventIndicators") none⟩, ⟨(chars! "nEventIndicators"), .scalar .size⟩]),
  ((chars! "fmi3GetContinuousStates"), [⟨(chars! "continuousStates"), .array .float64 (chars! "nContinuousStates") none⟩, ⟨(chars! "nContinuousStates"), .scalar .size⟩]),
  ((chars! "fmi3GetNominalsOfContinuousStates"), [⟨(chars! "nominals"), .array .float64 (chars! "nContinuousStates") none⟩, ⟨(chars! "nContinuousStates"), .scalar .size⟩]),
  ((chars! "fmi3GetNumberOfEventIndicators"), [⟨(chars! "nEventIndicators"), .out .size⟩]),
  ((chars! "fmi3GetNumberOfContinuousStates"), [⟨(chars! "nContinuousStates"), .out .size⟩]),
  ((chars! "fmi3EnterStepMode"), []),
  ((chars! "fmi3GetOutputDerivatives"), [⟨(chars! "valueReferences"), .array .valueReference (chars! "nValueReferences") none⟩, ⟨(chars! "nValueReferences"), .scalar .size⟩, ⟨(chars! "orders"), .array .int32 (chars! "nValueReferences") none⟩, ⟨(chars! "values"), .array .float64 (chars! "nValues") none⟩, ⟨(chars! "nValues"), .scalar .size⟩]),
  ((chars! "fmi3DoStep"), [⟨(chars! "currentCommunicationPoint"), .scalar .double⟩, ⟨(chars! "communicationStepSize"), .scalar .double⟩, ⟨(chars! "noSetFMUStatePriorToCurrentPoint"), .scalar .int⟩, ⟨(chars! "eventHandlingNeeded"), .out .int⟩, ⟨(chars! "terminateSimulation"), .out .int⟩, ⟨(chars! "earlyReturn"), .out .int⟩, ⟨(chars! "lastSuccessfulTime"), .out .double⟩]),
  ((chars! "fmi3ActivateModelPartition"), [⟨(chars! "clockReference"), .scalar .uint⟩, ⟨(chars! "activationTime"), .scalar .double⟩])]

end Verif.Spec.CallLog
