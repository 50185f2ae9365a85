import Verif.Importer.OutputFile
import Verif.Chars

/-!
# The way of a message from an FMU to the logger of the program that imports it

The FMU formats the message (`logError`, `logEvent` and `logMessage` in src/cosimulation.c), passes it to the callback that the importer library has registered (`cb_logMessage2` in src/FMI2.c, `cb_logMessage3`
in src/FMI3.c), and that passes it to the logger of the program, which prints it (examples/util.h). Characters stand for bytes.
-/

namespace Verif.Importer.Messages
open Verif

/-- A value that is passed to a variadic function: `int`, `unsigned int`, `uint64_t`, `size_t`, `double`, a string (`none`: NULL). The arguments of `logError` in src/cosimulation.c, src/fmi2Functions.c,
src/fmi3Functions.c, include/model.h 248-268 and the files model.c. -/
inductive Val (F : Type)
  | int (i : Int)
  | uint (n : Nat)
  | uint64 (n : Nat)
  | size (n : Nat)
  | double (x : F)
  | string (s : Option (List Char))

/-- What the C library prints for a number with `%g` and `%.16g`; parameters of the model. src/fmi2Functions.c 506-520, src/fmi3Functions.c 1206-1226. -/
structure CLib (F : Type) where
  g : F → List Char
  g16 : F → List Char

/-- The beginnings of conversion specifications that are not complete, for the formats in src/cosimulation.c, src/fmi2Functions.c, src/fmi3Functions.c, include/model.h and the files model.c. -/
def prefixes : List (List Char) := [['z'], ['l'], ['l', 'l'], ['.'], ['.', '1'], ['.', '1', '6']]

variable {F : Type}

/-- A conversion specification (without the first `%`): its text and the rest of the arguments. A missing argument, an argument of another type and NULL for `%s` are undefined (C11 7.21.6.1, paragraphs 2 and 9).
Simplifications: `%llu` is taken to accept every `uint64_t`; the specifications that do not occur in the formats of /repo are undefined here (without an argument they always are). The calls of `vsnprintf` in
src/cosimulation.c 280, 289 and src/FMI2.c 29. -/
def conversion (C : CLib F) (spec : List Char) (args : List (Val F)) : Outcome (List Char × List (Val F)) :=
  if spec = ['%'] then .ret (['%'], args)
  else match args with
    | .int i :: as => if spec = ['d'] then .ret (OutputFile.decimal i, as) else .ub
    | .uint n :: as => if spec = ['u'] then .ret (OutputFile.decimal n, as) else .ub
    | .uint64 n :: as => if spec = ['l', 'l', 'u'] then .ret (OutputFile.decimal n, as) else .ub
    | .size n :: as => if spec = ['z', 'u'] then .ret (OutputFile.decimal n, as) else .ub
    | .double x :: as => if spec = ['g'] then .ret (C.g x, as) else if spec = ['.', '1', '6', 'g'] then .ret (C.g16 x, as) else .ub
    | .string (some s) :: as => if spec = ['s'] then .ret (s, as) else .ub
    | _ => .ub

/-- What a `printf` function prints. The first argument is the state: `none` outside of a conversion specification, otherwise what was read of it. A format that ends within a conversion
specification is undefined (C11 7.21.6.1, paragraph 9). The calls of `vsnprintf` in src/cosimulation.c 280, 289 and src/FMI2.c 29. -/
def sprintf (C : CLib F) : Option (List Char) → List Char → List (Val F) → Outcome (List Char)
  | none, [], _ => .ret []
  | some _, [], _ => .ub
  | none, c :: f, args =>
    if c = '%' then sprintf C (some []) f args else sprintf C none f args >>- fun t => .ret (c :: t)
  | some m, c :: f, args =>
    if m ++ [c] ∈ prefixes then sprintf C (some (m ++ [c])) f args
    else conversion C (m ++ [c]) args >>- fun r => sprintf C none f r.2 >>- fun t => .ret (r.1 ++ t)

/-- `vsnprintf`: the value it returns (negative if the length does not fit into an `int`) and the text in the buffer of the given size. The calls in src/cosimulation.c 280, 289 and src/FMI2.c 29. -/
def vsnprintf (C : CLib F) (size : Nat) (format : List Char) (args : List (Val F)) : Outcome (Int × List Char) :=
  sprintf C none format args >>- fun t => .ret (if t.length < 2147483648 then t.length else -1, t.take (size - 1))

/-- What the logger of the program gets: `FMILogMessage`, include/FMI.h 138 (without the pointer to the instance). -/
structure Message where
  status : Status
  category : List Char
  text : List Char
  deriving DecidableEq, Repr

/-- A callback for messages: `loggerType`, include/model.h 80-84, without the environment and the name of the instance. The result are the messages that the program gets. -/
abbrev Logger := Status → List Char → List Char → Outcome (List Message)

/-- `cb_logMessage2`, src/FMI2.c 18-36, with the buffer of `FMI_MAX_MESSAGE_LENGTH` bytes (include/FMI.h 18-20); `logMessage` tells whether the program has a logger. The FMU passes no further arguments
(src/cosimulation.c 295), and the environment is the instance (src/FMI2.c 225), so it is not NULL. -/
def cb_logMessage2 (C : CLib F) (logMessage : Bool) : Logger := fun status category message =>
  vsnprintf C 4096 message [] >>- fun r => .ret (if logMessage then [⟨status, category, r.2⟩] else [])

/-- `cb_logMessage3`, src/FMI3.c 15-27; the environment is the instance (src/FMI3.c 267, 318, 393). -/
def cb_logMessage3 (logMessage : Bool) : Logger := fun status category message =>
  .ret (if logMessage then [⟨status, category, message⟩] else [])

/-- The FMI versions of the importer library for which the FMUs are modelled. src/FMI2.c, src/FMI3.c. -/
inductive Version
  | fmi2 | fmi3
  deriving DecidableEq, Repr

/-- The callback that the importer library passes to the FMU (`none`: NULL). src/FMI2.c 221; src/FMI3.c 265, 316, 391. -/
def logger (C : CLib F) (logMessage : Bool) : Version → Option Logger
  | .fmi2 => some (cb_logMessage2 C logMessage)
  | .fmi3 => if logMessage then some (cb_logMessage3 logMessage) else none

/-- `logMessage` of the FMU, src/cosimulation.c 269-302. `calloc` tells whether the allocation succeeds; if it does not, `vsnprintf` gets a null pointer with a size that is not 0. -/
def logMessage (C : CLib F) (calloc : Bool) (logger : Option Logger) (status : Status) (category format : List Char) (args : List (Val F)) : Outcome (List Message) :=
  match logger with
  | none => .ret []
  | some cb => vsnprintf C 0 format args >>- fun r =>
    if r.1 < 0 then .ret []
    else if !calloc then .ub
    else vsnprintf C (r.1.toNat + 1) format args >>- fun r =>
      if r.1 ≥ 0 then cb status category r.2 else .ret []

/-- The fields `logEvents` and `logErrors` of an instance, include/model.h 101-160. -/
structure Switches where
  events : Bool
  errors : Bool
  deriving DecidableEq, Repr

/-- `logEvent`, src/cosimulation.c 304-312. -/
def logEvent (C : CLib F) (calloc : Bool) (logger : Option Logger) (s : Switches) (format : List Char) (args : List (Val F)) : Outcome (List Message) :=
  if s.events then logMessage C calloc logger .OK (chars! "logEvents") format args else .ret []

/-- `logError`, src/cosimulation.c 314-322. -/
def logError (C : CLib F) (calloc : Bool) (logger : Option Logger) (s : Switches) (format : List Char) (args : List (Val F)) : Outcome (List Message) :=
  if s.errors then logMessage C calloc logger .Error (chars! "logStatusError") format args else .ret []

/-- The loop of `setDebugLogging`, src/cosimulation.c 244-257, with the messages that the program gets; `n` iterations from index `i`. -/
def setDebugLoggingLoop (C : CLib F) (calloc : Bool) (logger : Option Logger) (on : Bool) (categories : Ptr (Option (List Char))) :
    (n i : Nat) → Switches → Outcome (Switches × Status × List Message)
  | 0, _, s => .ret (s, .OK, [])
  | n + 1, i, s => categories.read i >>- fun category =>
    match category with
    | none => logError C calloc logger s (chars! "Argument categories[%zu] must not be NULL.") [.size i] >>- fun ms => .ret (s, .Error, ms)
    | some c =>
      if c = chars! "logEvents" then setDebugLoggingLoop C calloc logger on categories n (i + 1) { s with events := on }
      else if c = chars! "logStatusError" then setDebugLoggingLoop C calloc logger on categories n (i + 1) { s with errors := on }
      else logError C calloc logger s (chars! "Log categories[%zu] must be one of \"logEvents\" or \"logStatusError\" but was \"%s\".") [.size i, .string (some c)] >>- fun ms =>
        .ret (s, .Error, ms)

/-- `setDebugLogging`, src/cosimulation.c 235-267: the switches afterwards, the status and the messages that the program gets. -/
def setDebugLogging (C : CLib F) (calloc : Bool) (logger : Option Logger) (on : Bool) (n : Nat) (categories : Ptr (Option (List Char))) (s : Switches) :
    Outcome (Switches × Status × List Message) :=
  if n > 0 then
    if categories.isNone then logError C calloc logger s (chars! "Argument categories must not be NULL.") [] >>- fun ms => .ret (s, .Error, ms)
    else setDebugLoggingLoop C calloc logger on categories n 0 s
  else .ret (⟨on, on⟩, .OK, [])

/-- What the logger of the example programs prints: `logMessage`, examples/util.h 135-159. -/
def console (m : Message) : List Char :=
  (match m.status with
  | .OK => chars! "[OK] "
  | .Warning => chars! "[Warning] "
  | .Discard => chars! "[Discard] "
  | .Error => chars! "[Error] "
  | .Fatal => chars! "[Fatal] "
  | .Pending => chars! "[Pending] ") ++ m.text ++ ['\n']

/-- The formats of the messages of the FMUs. src/cosimulation.c 196, 228, 240, 247, 254, 324-492, include/model.h 248-268, src/fmi2Functions.c 28, 201-724,
src/fmi3Functions.c 27, 230-1294 and the files model.c. Where a macro puts the text of its argument into the format (include/model.h 248-268, src/cosimulation.c 324-331, 407-414), there is one entry for every use of the macro. -/
def formats : List (List Char) := [
  chars! "Out of memory.",
  chars! "Failed to allocate memory.",
  chars! "%s: Invalid argument %s = %d. Expected %d.",
  chars! "%s: Invalid argument %s = NULL.",
  chars! "Argument categories must not be NULL.",
  chars! "Argument categories[%zu] must not be NULL.",
  chars! "Log categories[%zu] must be one of \"logEvents\" or \"logStatusError\" but was \"%s\".",
  chars! "Getting Float32 is not allowed.",
  chars! "Getting Int8 is not allowed.",
  chars! "Getting UInt8 is not allowed.",
  chars! "Getting Int16 is not allowed.",
  chars! "Getting UInt16 is not allowed.",
  chars! "Getting Int32 is not allowed.",
  chars! "Getting UInt32 is not allowed.",
  chars! "Getting Int64 is not allowed.",
  chars! "Getting UInt64 is not allowed.",
  chars! "Getting Boolean is not allowed.",
  chars! "Getting String is not allowed.",
  chars! "Getting Binary is not allowed.",
  chars! "Setting Float32 is not allowed.",
  chars! "Setting Float64 is not allowed.",
  chars! "Setting Int8 is not allowed.",
  chars! "Setting UInt8 is not allowed.",
  chars! "Setting Int16 is not allowed.",
  chars! "Setting UInt16 is not allowed.",
  chars! "Setting Int32 is not allowed.",
  chars! "Setting UInt32 is not allowed.",
  chars! "Setting Int64 is not allowed.",
  chars! "Setting UInt64 is not allowed.",
  chars! "Setting Boolean is not allowed.",
  chars! "Setting String is not allowed.",
  chars! "Setting Binary is not allowed.",
  chars! "Directional derivatives are not supported.",
  chars! "Argument %s must not be NULL.",
  chars! "fmi2%s: Illegal call sequence.",
  chars! "fmi2SetRealInputDerivatives: ignoring function call. This model cannot interpolate inputs: canInterpolateInputs=\"fmi2False\"",
  chars! "fmi2GetRealOutputDerivatives: ignoring function call. This model cannot compute derivatives of outputs: MaxOutputDerivativeOrder=\"0\"",
  chars! "fmi2CancelStep: Can be called when fmi2DoStep returned fmi2Pending. This is not the case.",
  chars! "Expected currentCommunicationPoint = %.16g but was %.16g.",
  chars! "Communication step size must be > 0 but was %g.",
  chars! "At communication point %.16g a step size of %.16g was requested but stop time is %.16g.",
  chars! "%s: Can be called with fmi2DoStepStatus when fmi2DoStep returned fmi2Pending. This is not the case.",
  chars! "%s: Can be called with fmi2PendingStatus when fmi2DoStep returned fmi2Pending. This is not the case.",
  chars! "%s: Can be called with fmi2LastSuccessfulTime when fmi2DoStep returned fmi2Discard. This is not the case.",
  chars! "%s: Can be called with fmi2Terminated when fmi2DoStep returned fmi2Discard. This is not the case.",
  chars! "Expected nValues = %zu but was %zu.",
  chars! "Function is not implemented.",
  chars! "fmi3%s: Illegal call sequence.",
  chars! "Communication step size must be > 0 but was %.16g.",
  chars! "Argument 'comp' must not be NULL",
  chars! "Argument 'FMUState' must not be NULL",
  chars! "Argument 'values' must not be NULL",
  chars! "Argument 'index' must not be NULL",
  chars! "Argument 'value' must not be NULL",
  chars! "Argument 'x' must not be NULL",
  chars! "Argument 'nominals' must not be NULL",
  chars! "Argument 'dx' must not be NULL",
  chars! "Argument 'z' must not be NULL",
  chars! "Argument 'partialDerivative' must not be NULL",
  chars! "Expected nValues >= %zu but was %zu.",
  chars! "Expected nx = %zu but was %zu.",
  chars! "Expected nz = %zu but was %zu.",
  chars! "Get Float64 is not allowed for value reference %u.",
  chars! "Variable \"h\" can only be set in Instantiated Mode, Initialization Mode, Continuous Time Mode, and Event Mode.",
  chars! "Variable \"v\" can only be set in Instantiated Mode, Initialization Mode, Continuous Time Mode, and Event Mode.",
  chars! "Variable g can only be set after instantiation or in initialization mode.",
  chars! "Variable e can only be set after instantiation, in initialization mode or event mode.",
  chars! "Variable v_min (value reference %u) is constant and cannot be set.",
  chars! "Unexpected value reference: %u.",
  chars! "The output derivative order %d for value reference %u is not available.",
  chars! "The output derivative for value reference %u is not available.",
  chars! "Set Int32 is not allowed for value reference %u.",
  chars! "Get Int32 is not allowed for value reference %u.",
  chars! "Get Clock is not allowed for value reference %u.",
  chars! "Get Interval is not allowed for value reference %u.",
  chars! "Activate model partition is not allowed for value reference %u.",
  chars! "Variable k can only be set after instantiation or in initialization mode.",
  chars! "Set Float64 is not allowed for value reference %u.",
  chars! "Get Float32 is not allowed for value reference %u.",
  chars! "Get Int8 is not allowed for value reference %u.",
  chars! "Get UInt8 is not allowed for value reference %u.",
  chars! "Get Int16 is not allowed for value reference %u.",
  chars! "Get UInt16 is not allowed for value reference %u.",
  chars! "Get UInt32 is not allowed for value reference %u.",
  chars! "Get Int64 is not allowed for value reference %u.",
  chars! "Get UInt64 is not allowed for value reference %u.",
  chars! "Get Boolean is not allowed for value reference %u.",
  chars! "Get Binary is not allowed for value reference %u.",
  chars! "Get String is not allowed for value reference %u.",
  chars! "Variable Float32_discrete_input can only be set in after instantiation, in Initialization Mode, and in Event Mode.",
  chars! "Set Float32 is not allowed for value reference %u.",
  chars! "Variable Float64_fixed_parameter can only be set after instantiation or in initialization mode.",
  chars! "Variable Float64_tunable_parameter can only be set after instantiation, in initialization mode or event mode.",
  chars! "Variable Float64_discrete_input can only be set after instantiation, in initialization mode or event mode.",
  chars! "Set Int8 is not allowed for value reference %u.",
  chars! "Set UInt8 is not allowed for value reference %u.",
  chars! "Set Int16 is not allowed for value reference %u.",
  chars! "Set UInt16 is not allowed for value reference %u.",
  chars! "%d is not a legal value for Enumeration_input.",
  chars! "Set UInt32 is not allowed for value reference %u.",
  chars! "%llu is not a legal value for Enumeration_input.",
  chars! "Set Int64 is not allowed for value reference %u.",
  chars! "Set UInt64 is not allowed for value reference %u.",
  chars! "Set Boolean is not allowed for value reference %u.",
  chars! "Max. string length is %d bytes.",
  chars! "Set String is not allowed for value reference %u.",
  chars! "Max. binary size is %d bytes.",
  chars! "Set Binary is not allowed for value reference %u.",
  chars! "Resource location must not be NULL.",
  chars! "Failed to convert resource location to file system path.",
  chars! "The resourceLocation must start with \"file:/\" or \"file:///\"",
  chars! "Failed to open resource file %s.",
  chars! "Variable \"counter\" can only be set in Instantiated and Intialization Mode.",
  chars! "The maximum value for variable \"counter\" is 10.",
  chars! "Variable \"counter\" cannot be incremented for values >= 10.",
  chars! "Variable \"x\" can only be set in Continuous Time Mode and Event Mode.",
  chars! "Structural variables can only be set in Configuration Mode or Reconfiguration Mode.",
  chars! "Variable m must not be greater than 5.",
  chars! "Variable n must not be greater than 5.",
  chars! "Variable r must not be greater than 5.",
  chars! "Expected nx=%zu but was %zu.",
  chars! "Variable mu can only be set after instantiation, in initialization mode or event mode."]

end Verif.Importer.Messages
