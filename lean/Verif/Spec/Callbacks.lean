import Verif.Spec.Reach
import Verif.RefFMUs

/-! # Specification: the callbacks of Scheduled Execution -/

namespace Verif
variable {F : Type}

/-- An invocation of one of the callbacks that an importer passes to `fmi3InstantiateScheduledExecution`. -/
def Ev.scheduling : Ev F → Bool
  | .clockUpdate | .lock | .unlock => true
  | _ => false

/-- An invocation of `lockPreemption` or `unlockPreemption`. -/
def Ev.locking : Ev F → Bool
  | .lock | .unlock => true
  | _ => false

/-- The callbacks during the activation of a model partition of Clocks. `lock` and `unlock` tell which of the two callbacks the
importer has provided. The partition of `inClock1` (1001) has the highest priority and does not lock preemption; the other two
lock it once and unlock it again. If there is something to fetch (`news`), the importer is told so at the end, when preemption
is not locked. -/
def Clocks.callbacks (lock unlock : Bool) (clock : Nat) (news : Bool) : List (Ev F) :=
  (if clock = 1001 then [] else (if lock then [.lock] else []) ++ (if unlock then [.unlock] else [])) ++
  (if news then [.clockUpdate] else [])

/-- `n` times locking and unlocking. -/
def FMI3.locks (n : Nat) : List (Ev F) := (List.replicate n [.lock, .unlock]).flatten

variable {D : Type} [Arith F] [HasInf F]

/-- The importer has created the instance with these callbacks for preemption and reached the world `w` by some calls. -/
def FMI3.Scheduled (m : Model F D) (lock unlock : Bool) (w : FMI3.World F D) : Prop :=
  ∃ name token resource loggingOn logger clockUpdate mem c l w₀ fuel ops outs,
    FMI3.instantiateScheduledExecution m name token resource loggingOn logger clockUpdate lock unlock mem = (some c, l) ∧
    w₀.Initial c ∧ FMI3.run m fuel w₀ ops = .ret (w, outs)

end Verif
