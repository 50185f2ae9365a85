import Verif.FMI3

/-!
# Histories of FMI 3.0 calls

Same conventions as `Verif.History2`. Not part of a history: the three instantiation
functions, `fmi3FreeInstance`, `fmi3GetVersion`, and calls with a NULL handle, which return
`fmi3Error` without any effect (src/fmi3Functions.c 224-227).
-/

namespace Verif
namespace FMI3

/-- An instance with the importer's FMU-state variables and byte buffers.
The arguments `FMUState` and `serializedState` of src/fmi3Functions.c 764-836. -/
structure World (F D : Type) where
  inst : Comp F D
  slots : Nat → Option (Comp F D)
  bufs : Nat → Option (Buffer F D)

/-- A world with a new instance and no saved states. The situation after `fmi3Instantiate*`, src/fmi3Functions.c 254-381. -/
def World.fresh {F D : Type} (c : Comp F D) : World F D := ⟨c, fun _ => none, fun _ => none⟩

/-- The functions that only report `Function is not implemented.`, src/fmi3Functions.c 737-762,
947-1043. -/
inductive NotImpl
  | getNumberOfVariableDependencies | getVariableDependencies | getIntervalFraction
  | getShiftDecimal | getShiftFraction | setIntervalDecimal | setIntervalFraction
  | setShiftDecimal | setShiftFraction | evaluateDiscreteStates
  deriving DecidableEq, Repr

/-- The names of the API functions. src/fmi3Functions.c 245-252, 387-1294. -/
inductive Fn
  | setDebugLogging | enterInitializationMode | exitInitializationMode | enterEventMode
  | terminate | reset | get (t : VType) | getClock | set (t : VType) | setClock
  | getFMUState | setFMUState | freeFMUState | serializedFMUStateSize | serializeFMUState
  | deserializeFMUState | getDirectionalDerivative | getAdjointDerivative
  | enterConfigurationMode | exitConfigurationMode | getIntervalDecimal
  | updateDiscreteStates | enterContinuousTimeMode | completedIntegratorStep | setTime
  | setContinuousStates | getDerivatives | getEventIndicators | getContinuousStates
  | getNominals | getNumberOfEventIndicators | getNumberOfContinuousStates | enterStepMode
  | getOutputDerivatives | doStep | activateModelPartition | notImplemented (f : NotImpl)
  deriving DecidableEq, Repr

/-- API calls with their arguments. src/fmi3Functions.c 245-252, 387-1294. -/
inductive Op (F : Type)
  | setDebugLogging (on : Bool) (n : Nat) (cats : Ptr (Option String))
  | enterInitializationMode (startTime : F) (stopTimeDefined : Bool) (stopTime : F)
  | exitInitializationMode
  | enterEventMode
  | terminate
  | reset
  | get (t : VType) (vr : Ptr Nat) (nvr : Nat) (values : Ptr (t.Val F)) (nValues : Nat)
  | getClock (vr : Ptr Nat) (nvr : Nat) (values : Ptr Bool)
  | set (t : VType) (vr : Ptr Nat) (nvr : Nat) (values : Ptr (t.Val F)) (nValues : Nat)
  | setClock (vr : Ptr Nat) (nvr : Nat) (values : Ptr Bool)
  | getFMUState (slot : Nat)
  | setFMUState (slot : Nat)
  | freeFMUState (slot : Nat)
  | serializedFMUStateSize (size : Option Nat)
  | serializeFMUState (slot buf size : Nat)
  | deserializeFMUState (buf size slot : Nat)
  | getDirectionalDerivative (unknowns : Ptr Nat) (nUnknowns : Nat) (knowns : Ptr Nat)
      (nKnowns : Nat) (seed sensitivity : Ptr F)
  | getAdjointDerivative (unknowns : Ptr Nat) (nUnknowns : Nat) (knowns : Ptr Nat)
      (nKnowns : Nat) (seed sensitivity : Ptr F)
  | enterConfigurationMode
  | exitConfigurationMode
  | getIntervalDecimal (vr : Ptr Nat) (nvr : Nat) (intervals : Ptr F) (qualifiers : Ptr Int)
  | updateDiscreteStates (out : EventOut F)
  | enterContinuousTimeMode
  | completedIntegratorStep (enterEventMode terminateSimulation : Option Bool)
  | setTime (t : F)
  | setContinuousStates (x : Ptr F) (nx : Nat)
  | getDerivatives (dx : Ptr F) (nx : Nat)
  | getEventIndicators (z : Ptr F) (nz : Nat)
  | getContinuousStates (x : Ptr F) (nx : Nat)
  | getNominals (x : Ptr F) (nx : Nat)
  | getNumberOfEventIndicators (n : Option Nat)
  | getNumberOfContinuousStates (n : Option Nat)
  | enterStepMode
  | getOutputDerivatives (vr : Ptr Nat) (nvr : Nat) (orders : Ptr Int) (values : Ptr F)
  | doStep (ccp step : F) (out : StepOut F)
  | activateModelPartition (clock : Nat) (t : F)
  | notImplemented (f : NotImpl)

/-- The function an operation calls. src/fmi3Functions.c 245-252, 387-1294. -/
def Op.fn {F : Type} : Op F → Fn
  | .setDebugLogging .. => .setDebugLogging
  | .enterInitializationMode .. => .enterInitializationMode
  | .exitInitializationMode => .exitInitializationMode
  | .enterEventMode => .enterEventMode
  | .terminate => .terminate
  | .reset => .reset
  | .get t .. => .get t
  | .getClock .. => .getClock
  | .set t .. => .set t
  | .setClock .. => .setClock
  | .getFMUState .. => .getFMUState
  | .setFMUState .. => .setFMUState
  | .freeFMUState .. => .freeFMUState
  | .serializedFMUStateSize .. => .serializedFMUStateSize
  | .serializeFMUState .. => .serializeFMUState
  | .deserializeFMUState .. => .deserializeFMUState
  | .getDirectionalDerivative .. => .getDirectionalDerivative
  | .getAdjointDerivative .. => .getAdjointDerivative
  | .enterConfigurationMode => .enterConfigurationMode
  | .exitConfigurationMode => .exitConfigurationMode
  | .getIntervalDecimal .. => .getIntervalDecimal
  | .updateDiscreteStates .. => .updateDiscreteStates
  | .enterContinuousTimeMode => .enterContinuousTimeMode
  | .completedIntegratorStep .. => .completedIntegratorStep
  | .setTime .. => .setTime
  | .setContinuousStates .. => .setContinuousStates
  | .getDerivatives .. => .getDerivatives
  | .getEventIndicators .. => .getEventIndicators
  | .getContinuousStates .. => .getContinuousStates
  | .getNominals .. => .getNominals
  | .getNumberOfEventIndicators .. => .getNumberOfEventIndicators
  | .getNumberOfContinuousStates .. => .getNumberOfContinuousStates
  | .enterStepMode => .enterStepMode
  | .getOutputDerivatives .. => .getOutputDerivatives
  | .doStep .. => .doStep
  | .activateModelPartition .. => .activateModelPartition
  | .notImplemented f => .notImplemented f

/-- What a call writes through its output pointers. The output arguments of src/fmi3Functions.c 452-591, 783-813, 838-896, 930-945, 1045-1294. -/
inductive Out (F : Type)
  | unit
  | values (t : VType) (p : Ptr (t.Val F))
  | reals (p : Ptr F)
  | bools (p : Ptr Bool)
  | size (n : Option Nat)
  | flags (a b : Option Bool)
  | intervals (p : Ptr F) (q : Ptr Int)
  | event (o : EventOut F)
  | step (o : StepOut F)

section
variable {F D : Type}

/-- Perform a call that only concerns the instance. For example src/fmi3Functions.c 434-438. -/
def World.run {β : Type} (w : World F D) (r : Res F D β) (out : β → Out F) :
    Outcome (World F D × Status × Out F) :=
  r >>- fun (c, s, b) => .ret ({ w with inst := c }, s, out b)

/-- Perform a call that writes the FMU-state variable `i`. src/fmi3Functions.c 764-781, 815-836. -/
def World.runSlot (w : World F D) (i : Nat) (r : Res F D (Option (Comp F D))) :
    Outcome (World F D × Status × Out F) :=
  r >>- fun (c, s, v) =>
    .ret ({ w with inst := c, slots := fun j => if j = i then v else w.slots j }, s, .unit)

/-- Perform a call that writes the buffer `i`. src/fmi3Functions.c 796-813. -/
def World.runBuf (w : World F D) (i : Nat) (r : Res F D (Option (Buffer F D))) :
    Outcome (World F D × Status × Out F) :=
  r >>- fun (c, s, v) =>
    .ret ({ w with inst := c, bufs := fun j => if j = i then v else w.bufs j }, s, .unit)

variable [Arith F] [HasInf F]

/-- Perform one API call. src/fmi3Functions.c 245-252, 387-1294. -/
def step (m : Model F D) (fuel : Nat) (w : World F D) : Op F → Outcome (World F D × Status × Out F)
  | .setDebugLogging on n cats => w.run (setDebugLogging w.inst on n cats) fun _ => .unit
  | .enterInitializationMode a d b => w.run (enterInitializationMode w.inst a d b) fun _ => .unit
  | .exitInitializationMode => w.run (exitInitializationMode m w.inst) fun _ => .unit
  | .enterEventMode => w.run (enterEventMode w.inst) fun _ => .unit
  | .terminate => w.run (terminate w.inst) fun _ => .unit
  | .reset => w.run (reset m w.inst) fun _ => .unit
  | .get t vr n v nv => w.run (getVars m t w.inst vr n v nv) (.values t)
  | .getClock vr n v => w.run (getClock m w.inst vr n v) .bools
  | .set t vr n v nv => w.run (setVars m t w.inst vr n v nv) fun _ => .unit
  | .setClock vr n v => w.run (setClock m w.inst vr n v) fun _ => .unit
  | .getFMUState i => w.runSlot i (getFMUState w.inst (w.slots i))
  | .setFMUState i => w.run (setFMUState m w.inst (w.slots i)) fun _ => .unit
  | .freeFMUState i => w.runSlot i (freeFMUState w.inst (w.slots i))
  | .serializedFMUStateSize n => w.run (serializedFMUStateSize m w.inst n) .size
  | .serializeFMUState i b n => w.runBuf b (serializeFMUState m w.inst (w.slots i) (w.bufs b) n)
  | .deserializeFMUState b n i =>
    w.runSlot i (deserializeFMUState m w.inst (w.bufs b) n (w.slots i))
  | .getDirectionalDerivative u nu k nk s v =>
    w.run (getDirectionalDerivative m w.inst u nu k nk s v) .reals
  | .getAdjointDerivative u nu k nk s v =>
    w.run (getAdjointDerivative m w.inst u nu k nk s v) .reals
  | .enterConfigurationMode => w.run (enterConfigurationMode w.inst) fun _ => .unit
  | .exitConfigurationMode => w.run (exitConfigurationMode m w.inst) fun _ => .unit
  | .getIntervalDecimal vr n i q =>
    w.run (getIntervalDecimal m w.inst vr n i q) fun p => .intervals p.1 p.2
  | .updateDiscreteStates o => w.run (updateDiscreteStates m w.inst o) .event
  | .enterContinuousTimeMode => w.run (enterContinuousTimeMode w.inst) fun _ => .unit
  | .completedIntegratorStep a b =>
    w.run (completedIntegratorStep w.inst a b) fun p => .flags p.1 p.2
  | .setTime t => w.run (setTime w.inst t) fun _ => .unit
  | .setContinuousStates x n => w.run (setContinuousStates m w.inst x n) fun _ => .unit
  | .getDerivatives x n => w.run (getDerivatives m w.inst x n) .reals
  | .getEventIndicators x n => w.run (getEventIndicators m w.inst x n) .reals
  | .getContinuousStates x n => w.run (getContinuousStates m w.inst x n) .reals
  | .getNominals x n => w.run (getNominals m w.inst x n) .reals
  | .getNumberOfEventIndicators n => w.run (getNumberOfEventIndicators m w.inst n) .size
  | .getNumberOfContinuousStates n => w.run (getNumberOfContinuousStates m w.inst n) .size
  | .enterStepMode => w.run (enterStepMode w.inst) fun _ => .unit
  | .getOutputDerivatives vr n o v => w.run (getOutputDerivatives m w.inst vr n o v) .reals
  | .doStep ccp h o => w.run (doStep m fuel w.inst ccp h o) .step
  | .activateModelPartition k t => w.run (activateModelPartition m w.inst k t) fun _ => .unit
  | .notImplemented _ => w.run (notImplemented w.inst ()) fun _ => .unit

/-- Perform a sequence of API calls; the result lists status and outputs of each call. Any sequence of calls of src/fmi3Functions.c 245-252, 387-1294. -/
def run (m : Model F D) (fuel : Nat) (w : World F D) :
    List (Op F) → Outcome (World F D × List (Status × Out F))
  | [] => .ret (w, [])
  | op :: ops =>
    step m fuel w op >>- fun (w, s, o) =>
    run m fuel w ops >>- fun (w, l) => .ret (w, (s, o) :: l)

end
end FMI3
end Verif
