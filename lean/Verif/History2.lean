import Verif.FMI2

/-!
# Histories of FMI 2.0 calls

A world is one live instance together with the importer's variables of type `fmi2FMUstate`
and its byte buffers for serialised states. An operation is a call of one API function with
all its arguments; `step` performs it, `run` performs a list of them.

Not part of a history: `fmi2Instantiate` (it creates the world), `fmi2FreeInstance` (it ends
it), `fmi2GetVersion` and `fmi2GetTypesPlatform` (constant), and calls with a NULL handle,
which return `fmi2Error` without any effect (src/fmi2Functions.c 195-198).
-/

namespace Verif
namespace FMI2

/-- An instance with the importer's FMU-state variables and byte buffers.
The arguments `FMUstate` and `serializedState` of src/fmi2Functions.c 368-425. -/
structure World (F D : Type) where
  inst : Comp F D
  slots : Nat → Option (Comp F D)
  bufs : Nat → Option (Buffer F D)

/-- A world with a new instance and no saved states. The situation after `fmi2Instantiate`, src/fmi2Functions.c 213-232. -/
def World.fresh {F D : Type} (c : Comp F D) : World F D := ⟨c, fun _ => none, fun _ => none⟩

/-- The names of the API functions. src/fmi2Functions.c 234-724. -/
inductive Fn
  | setDebugLogging | setupExperiment | enterInitializationMode | exitInitializationMode
  | terminate | reset | getReal | getInteger | getBoolean | getString | setReal | setInteger
  | setBoolean | setString | getFMUstate | setFMUstate | freeFMUstate | serializedFMUstateSize
  | serializeFMUstate | deSerializeFMUstate | getDirectionalDerivative
  | setRealInputDerivatives | getRealOutputDerivatives | doStep | cancelStep | getStatus
  | getRealStatus | getIntegerStatus | getBooleanStatus | getStringStatus | enterEventMode
  | newDiscreteStates | enterContinuousTimeMode | completedIntegratorStep | setTime
  | setContinuousStates | getDerivatives | getEventIndicators | getContinuousStates
  | getNominals
  deriving DecidableEq, Repr

/-- API calls with their arguments (src/fmi2Functions.c 234-724, in this order). Saved states
and buffers are named by the index of the importer's variable. -/
inductive Op (F : Type)
  | setDebugLogging (on : Bool) (n : Nat) (cats : Ptr (Option String))
  | setupExperiment (startTime : F) (stopTimeDefined : Bool) (stopTime : F)
  | enterInitializationMode
  | exitInitializationMode
  | terminate
  | reset
  | getReal (vr : Ptr Nat) (nvr : Nat) (value : Ptr F)
  | getInteger (vr : Ptr Nat) (nvr : Nat) (value : Ptr Int)
  | getBoolean (vr : Ptr Nat) (nvr : Nat) (value : Ptr Int)
  | getString (vr : Ptr Nat) (nvr : Nat) (value : Ptr (Ptr UInt8))
  | setReal (vr : Ptr Nat) (nvr : Nat) (value : Ptr F)
  | setInteger (vr : Ptr Nat) (nvr : Nat) (value : Ptr Int)
  | setBoolean (vr : Ptr Nat) (nvr : Nat) (value : Ptr Int)
  | setString (vr : Ptr Nat) (nvr : Nat) (value : Ptr (Ptr UInt8))
  | getFMUstate (slot : Nat)
  | setFMUstate (slot : Nat)
  | freeFMUstate (slot : Nat)
  | serializedFMUstateSize (size : Option Nat)
  | serializeFMUstate (slot buf size : Nat)
  | deSerializeFMUstate (buf size slot : Nat)
  | getDirectionalDerivative (unknowns : Ptr Nat) (nUnknown : Nat) (knowns : Ptr Nat)
      (nKnown : Nat) (dvKnown dvUnknown : Ptr F)
  | setRealInputDerivatives
  | getRealOutputDerivatives (vr : Ptr Nat) (nvr : Nat) (order : Ptr Int) (value : Ptr F)
  | cancelStep
  | doStep (ccp step : F)
  | getStatus (s : StatusKind)
  | getRealStatus (s : StatusKind) (value : Option F)
  | getIntegerStatus (s : StatusKind)
  | getBooleanStatus (s : StatusKind) (value : Option Bool)
  | getStringStatus (s : StatusKind)
  | enterEventMode
  | newDiscreteStates (info : Option (EventInfo F))
  | enterContinuousTimeMode
  | completedIntegratorStep (enterEventMode terminateSimulation : Option Bool)
  | setTime (t : F)
  | setContinuousStates (x : Ptr F) (nx : Nat)
  | getDerivatives (dx : Ptr F) (nx : Nat)
  | getEventIndicators (z : Ptr F) (nz : Nat)
  | getContinuousStates (x : Ptr F) (nx : Nat)
  | getNominals (x : Ptr F) (nx : Nat)

/-- The function an operation calls. src/fmi2Functions.c 234-724. -/
def Op.fn {F : Type} : Op F → Fn
  | .setDebugLogging .. => .setDebugLogging
  | .setupExperiment .. => .setupExperiment
  | .enterInitializationMode => .enterInitializationMode
  | .exitInitializationMode => .exitInitializationMode
  | .terminate => .terminate
  | .reset => .reset
  | .getReal .. => .getReal
  | .getInteger .. => .getInteger
  | .getBoolean .. => .getBoolean
  | .getString .. => .getString
  | .setReal .. => .setReal
  | .setInteger .. => .setInteger
  | .setBoolean .. => .setBoolean
  | .setString .. => .setString
  | .getFMUstate .. => .getFMUstate
  | .setFMUstate .. => .setFMUstate
  | .freeFMUstate .. => .freeFMUstate
  | .serializedFMUstateSize .. => .serializedFMUstateSize
  | .serializeFMUstate .. => .serializeFMUstate
  | .deSerializeFMUstate .. => .deSerializeFMUstate
  | .getDirectionalDerivative .. => .getDirectionalDerivative
  | .setRealInputDerivatives => .setRealInputDerivatives
  | .getRealOutputDerivatives .. => .getRealOutputDerivatives
  | .cancelStep => .cancelStep
  | .doStep .. => .doStep
  | .getStatus .. => .getStatus
  | .getRealStatus .. => .getRealStatus
  | .getIntegerStatus .. => .getIntegerStatus
  | .getBooleanStatus .. => .getBooleanStatus
  | .getStringStatus .. => .getStringStatus
  | .enterEventMode => .enterEventMode
  | .newDiscreteStates .. => .newDiscreteStates
  | .enterContinuousTimeMode => .enterContinuousTimeMode
  | .completedIntegratorStep .. => .completedIntegratorStep
  | .setTime .. => .setTime
  | .setContinuousStates .. => .setContinuousStates
  | .getDerivatives .. => .getDerivatives
  | .getEventIndicators .. => .getEventIndicators
  | .getContinuousStates .. => .getContinuousStates
  | .getNominals .. => .getNominals

/-- What a call writes through its output pointers. The output arguments of src/fmi2Functions.c 320-342, 387-446, 468-488, 580-621, 643-724. -/
inductive Out (F : Type)
  | unit
  | reals (p : Ptr F)
  | ints (p : Ptr Int)
  | strs (p : Ptr (Ptr UInt8))
  | size (n : Option Nat)
  | real (v : Option F)
  | bool (v : Option Bool)
  | info (i : Option (EventInfo F))
  | flags (a b : Option Bool)
  deriving DecidableEq, Repr

section
variable {F D : Type}

/-- Perform a call that only concerns the instance. For example src/fmi2Functions.c 250-256. -/
def World.run {β : Type} (w : World F D) (r : Res F D β) (out : β → Out F) :
    Outcome (World F D × Status × Out F) :=
  r >>- fun (c, s, b) => .ret ({ w with inst := c }, s, out b)

/-- Perform a call that writes the FMU-state variable `i`. src/fmi2Functions.c 368-385, 411-425. -/
def World.runSlot (w : World F D) (i : Nat) (r : Res F D (Option (Comp F D))) :
    Outcome (World F D × Status × Out F) :=
  r >>- fun (c, s, v) =>
    .ret ({ w with inst := c, slots := fun j => if j = i then v else w.slots j }, s, .unit)

/-- Perform a call that writes the buffer `i`. src/fmi2Functions.c 395-409. -/
def World.runBuf (w : World F D) (i : Nat) (r : Res F D (Option (Buffer F D))) :
    Outcome (World F D × Status × Out F) :=
  r >>- fun (c, s, v) =>
    .ret ({ w with inst := c, bufs := fun j => if j = i then v else w.bufs j }, s, .unit)

variable [Arith F] [HasInf F]

/-- Perform one API call. src/fmi2Functions.c 234-724. -/
def step (m : Model F D) (fuel : Nat) (w : World F D) : Op F → Outcome (World F D × Status × Out F)
  | .setDebugLogging on n cats => w.run (setDebugLogging w.inst on n cats) fun _ => .unit
  | .setupExperiment a d b => w.run (setupExperiment w.inst a d b) fun _ => .unit
  | .enterInitializationMode => w.run (enterInitializationMode w.inst) fun _ => .unit
  | .exitInitializationMode => w.run (exitInitializationMode m w.inst) fun _ => .unit
  | .terminate => w.run (terminate w.inst) fun _ => .unit
  | .reset => w.run (reset m w.inst) fun _ => .unit
  | .getReal vr n v => w.run (getReal m w.inst vr n v) .reals
  | .getInteger vr n v => w.run (getInteger m w.inst vr n v) .ints
  | .getBoolean vr n v => w.run (getBoolean m w.inst vr n v) .ints
  | .getString vr n v => w.run (getString m w.inst vr n v) .strs
  | .setReal vr n v => w.run (setReal m w.inst vr n v) fun _ => .unit
  | .setInteger vr n v => w.run (setInteger m w.inst vr n v) fun _ => .unit
  | .setBoolean vr n v => w.run (setBoolean m w.inst vr n v) fun _ => .unit
  | .setString vr n v => w.run (setString m w.inst vr n v) fun _ => .unit
  | .getFMUstate i => w.runSlot i (getFMUstate w.inst (w.slots i))
  | .setFMUstate i => w.run (setFMUstate m w.inst (w.slots i)) fun _ => .unit
  | .freeFMUstate i => w.runSlot i (freeFMUstate w.inst (w.slots i))
  | .serializedFMUstateSize n => w.run (serializedFMUstateSize m w.inst n) .size
  | .serializeFMUstate i b n => w.runBuf b (serializeFMUstate m w.inst (w.slots i) (w.bufs b) n)
  | .deSerializeFMUstate b n i =>
    w.runSlot i (deSerializeFMUstate m w.inst (w.bufs b) n (w.slots i))
  | .getDirectionalDerivative u nu k nk dv du =>
    w.run (getDirectionalDerivative m w.inst u nu k nk dv du) .reals
  | .setRealInputDerivatives => w.run (setRealInputDerivatives w.inst) fun _ => .unit
  | .getRealOutputDerivatives vr n o v => w.run (getRealOutputDerivatives m w.inst vr n o v) .reals
  | .cancelStep => w.run (cancelStep w.inst) fun _ => .unit
  | .doStep ccp h => w.run (doStep m fuel w.inst ccp h) fun _ => .unit
  | .getStatus s => w.run (getStatus w.inst s) fun _ => .unit
  | .getRealStatus s v => w.run (getRealStatus w.inst s v) .real
  | .getIntegerStatus s => w.run (getIntegerStatus w.inst s) fun _ => .unit
  | .getBooleanStatus s v => w.run (getBooleanStatus w.inst s v) .bool
  | .getStringStatus s => w.run (getStringStatus w.inst s) fun _ => .unit
  | .enterEventMode => w.run (enterEventMode w.inst) fun _ => .unit
  | .newDiscreteStates i => w.run (newDiscreteStates m w.inst i) .info
  | .enterContinuousTimeMode => w.run (enterContinuousTimeMode w.inst) fun _ => .unit
  | .completedIntegratorStep a b =>
    w.run (completedIntegratorStep w.inst a b) fun p => .flags p.1 p.2
  | .setTime t => w.run (setTime w.inst t) fun _ => .unit
  | .setContinuousStates x n => w.run (setContinuousStates m w.inst x n) fun _ => .unit
  | .getDerivatives x n => w.run (getDerivatives m w.inst x n) .reals
  | .getEventIndicators x n => w.run (getEventIndicators m w.inst x n) .reals
  | .getContinuousStates x n => w.run (getContinuousStates m w.inst x n) .reals
  | .getNominals x n => w.run (getNominals m w.inst x n) .reals

/-- Perform a sequence of API calls; the result lists status and outputs of each call. Any sequence of calls of src/fmi2Functions.c 234-724. -/
def run (m : Model F D) (fuel : Nat) (w : World F D) :
    List (Op F) → Outcome (World F D × List (Status × Out F))
  | [] => .ret (w, [])
  | op :: ops =>
    step m fuel w op >>- fun (w, s, o) =>
    run m fuel w ops >>- fun (w, l) => .ret (w, (s, o) :: l)

end
end FMI2
end Verif
