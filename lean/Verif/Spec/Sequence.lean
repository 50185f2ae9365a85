import Verif.History2
import Verif.History3

/-!
# Calling a function once per item

`each mk w l` performs the calls `mk r` for the items `r` of `l` in order, until one of them does
not return OK. The result is the final world, the status of the last call (OK for no calls) and
the outputs of the calls that returned OK.
-/

namespace Verif
variable {F D ρ : Type} [Arith F] [HasInf F]

/-- One FMI 2.0 call per item of a list, until the first that does not return OK. -/
def FMI2.each (m : Model F D) (fuel : Nat) (mk : ρ → FMI2.Op F) :
    FMI2.World F D → List ρ → Outcome (FMI2.World F D × Status × List (FMI2.Out F))
  | w, [] => .ret (w, .OK, [])
  | w, r :: rs =>
    FMI2.step m fuel w (mk r) >>- fun (w, s, o) =>
      if s = .OK then FMI2.each m fuel mk w rs >>- fun (w, s, os) => .ret (w, s, o :: os)
      else .ret (w, s, [])

/-- One FMI 3.0 call per item of a list, until the first that does not return OK. -/
def FMI3.each (m : Model F D) (fuel : Nat) (mk : ρ → FMI3.Op F) :
    FMI3.World F D → List ρ → Outcome (FMI3.World F D × Status × List (FMI3.Out F))
  | w, [] => .ret (w, .OK, [])
  | w, r :: rs =>
    FMI3.step m fuel w (mk r) >>- fun (w, s, o) =>
      if s = .OK then FMI3.each m fuel mk w rs >>- fun (w, s, os) => .ret (w, s, o :: os)
      else .ret (w, s, [])

end Verif
