import Verif.Spec.Modes2
import Verif.Spec.Modes3

/-!
# Specification: the logging switches

`SetDebugLogging(loggingOn, n, categories)` with `n = 0` switches every category. Otherwise it
switches the named categories, from first to last; an unknown (or NULL) category is reported as an
error and ends the processing of the list.
-/

namespace Verif

/-- The two logging switches of an instance. -/
structure Switches where
  errors : Bool
  events : Bool
  deriving DecidableEq, Repr

/-- Switch the named categories; the second component tells whether all of them are known. -/
def Switches.name (on : Bool) : List (Option String) → Switches → Switches × Bool
  | [], k => (k, true)
  | some c :: l, k =>
    if c = "logEvents" then name on l { k with events := on }
    else if c = "logStatusError" then name on l { k with errors := on }
    else (k, false)
  | none :: _, k => (k, false)

/-- The effect of `SetDebugLogging` and whether it succeeds. -/
def Switches.set (on : Bool) (n : Nat) (cats : Ptr (Option String)) (k : Switches) :
    Switches × Bool :=
  if n = 0 then (⟨on, on⟩, true)
  else
    match cats with
    | none => (k, false)
    | some l => k.name on (l.take n)

/-- The switches of an instance. -/
def Comp.switches {F D : Type} (c : Comp F D) : Switches := ⟨c.ctx.logErrors, c.ctx.logEvents⟩

/-- A delivered log message that conforms to the switches `k`: it belongs to a category that is on,
and has the status of that category. -/
def Switches.permits {F : Type} (k : Switches) (logger : Bool) : Ev F → Prop
  | .log s cat _ => logger = true ∧
      (cat = "logStatusError" ∧ s = .Error ∧ k.errors = true ∨
       cat = "logEvents" ∧ s = .OK ∧ k.events = true)
  | _ => True

end Verif
