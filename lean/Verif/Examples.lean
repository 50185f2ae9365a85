import Verif.History2
import Verif.History3
import Verif.RefFMUs
import Verif.XRat

/-!
# Concrete instances and histories

Used beside the theorems to show that their hypotheses are met, and as witnesses. Nothing here
models code.
-/

namespace Verif

/-- The outcome is undefined behaviour. -/
def Outcome.isUb {α : Type} : Outcome α → Bool
  | .ub => true
  | _ => false

theorem Outcome.ub_of_isUb {α : Type} {r : Outcome α} (h : r.isUb = true) : r = .ub := by
  cases r <;> simp_all [Outcome.isUb]

/-- Whether a computation returns a value with property `p`. -/
def Outcome.is {α : Type} (r : Outcome α) (p : α → Bool) : Bool :=
  match r with
  | .ret a => p a
  | _ => false

theorem Outcome.exists_of_is {α : Type} {r : Outcome α} {p : α → Bool} (h : r.is p = true) :
    ∃ a, r = .ret a ∧ p a = true := by
  cases r <;> simp_all [Outcome.is]

theorem exists_of_any {α : Type} {o : Option α} {p : α → Bool} (h : o.any p = true) :
    ∃ a, o = some a ∧ p a = true := by
  cases o <;> simp_all

instance {F : Type} [DecidableEq F] : (t : VType) → DecidableEq (t.Val F)
  | .float32 => inferInstanceAs (DecidableEq UInt32)
  | .float64 => inferInstanceAs (DecidableEq F)
  | .int8 | .uint8 | .int16 | .uint16 | .int32 | .uint32 | .int64 | .uint64 =>
    inferInstanceAs (DecidableEq Int)
  | .boolean => inferInstanceAs (DecidableEq Bool)
  | .string => inferInstanceAs (DecidableEq (Ptr UInt8))
  | .binary => inferInstanceAs (DecidableEq CBinary)

deriving instance DecidableEq for FMI3.Out

namespace Ex
variable {D : Type}

/-- A new FMI 2.0 instance. -/
def new2 (m : Model XRat D) (t : IType) : Option (Comp XRat D) :=
  (FMI2.instantiate m (some "i") t (some m.token) none (some true) true true).1

/-- A new FMI 3.0 Model Exchange instance. -/
def newME3 (m : Model XRat D) : Option (Comp XRat D) :=
  (FMI3.instantiateModelExchange m (some "i") (some m.token) none true true true).1

/-- A new FMI 3.0 Co-Simulation instance. -/
def newCS3 (m : Model XRat D) (eventModeUsed earlyReturnAllowed : Bool) : Option (Comp XRat D) :=
  (FMI3.instantiateCoSimulation m (some "i") (some m.token) none true eventModeUsed
    earlyReturnAllowed true false true).1

/-- A new FMI 3.0 Scheduled Execution instance with all callbacks. -/
def newSE3 (m : Model XRat D) : Option (Comp XRat D) :=
  (FMI3.instantiateScheduledExecution m (some "i") (some m.token) none true true true true true true).1

/-- Run FMI 3.0 calls on a new Scheduled Execution instance. -/
def runSE3 (m : Model XRat D) (ops : List (FMI3.Op XRat)) :
    Outcome (FMI3.World XRat D × List (Status × FMI3.Out XRat)) :=
  match newSE3 m with
  | some c => FMI3.run m 1000 (.fresh c) ops
  | none => .ub

/-- Run FMI 2.0 calls on a new instance. -/
def run2 (m : Model XRat D) (t : IType) (ops : List (FMI2.Op XRat)) :
    Outcome (FMI2.World XRat D × List (Status × FMI2.Out XRat)) :=
  match new2 m t with
  | some c => FMI2.run m 1000 (.fresh c) ops
  | none => .ub

/-- Run FMI 3.0 calls on a new Model Exchange instance. -/
def runME3 (m : Model XRat D) (ops : List (FMI3.Op XRat)) :
    Outcome (FMI3.World XRat D × List (Status × FMI3.Out XRat)) :=
  match newME3 m with
  | some c => FMI3.run m 1000 (.fresh c) ops
  | none => .ub

/-- Run FMI 3.0 calls on a new Co-Simulation instance. -/
def runCS3 (m : Model XRat D) (eventModeUsed earlyReturnAllowed : Bool)
    (ops : List (FMI3.Op XRat)) : Outcome (FMI3.World XRat D × List (Status × FMI3.Out XRat)) :=
  match newCS3 m eventModeUsed earlyReturnAllowed with
  | some c => FMI3.run m 1000 (.fresh c) ops
  | none => .ub

/-- Set up and initialise from time 0 without stop time. -/
def init2 : List (FMI2.Op XRat) :=
  [.setupExperiment (.fin 0) false (.fin 0), .enterInitializationMode, .exitInitializationMode]

/-- Initialise from time 0 without stop time. -/
def init3 : List (FMI3.Op XRat) :=
  [.enterInitializationMode (.fin 0) false (.fin 0), .exitInitializationMode]

/-- Room for the outputs of `fmi3DoStep`. -/
def stepOut : FMI3.StepOut XRat := ⟨some false, some false, some false, some (.fin 0)⟩

/-- The number read by the `i`-th call. -/
def real2 (l : List (Status × FMI2.Out XRat)) (i : Nat) : Option XRat :=
  match l[i]? with
  | some (_, .reals (some (a :: _))) => some a
  | _ => none

/-- The number read by the `i`-th call. -/
def real3 (l : List (Status × FMI3.Out XRat)) (i : Nat) : Option XRat :=
  match l[i]? with
  | some (_, .values .float64 (some (a :: _))) => some a
  | some (_, .reals (some (a :: _))) => some a
  | _ => none

/-- All calls returned OK. -/
def allOK {O : Type} (l : List (Status × O)) : Bool := l.all fun x => x.1 == .OK

end Ex
end Verif
