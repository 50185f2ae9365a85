import Verif.Spec.Reach

/-!
# Specification: what the importer sees whenever it can read a variable
-/

namespace Verif
variable {F D : Type} [Arith F] [HasInf F]

/-- Whenever the importer can read the real variable `vr`, it gets `v`. -/
def FMI2.ShowsReal (m : Model F D) (w : FMI2.World F D) (vr : Nat) (v : F) : Prop :=
  ∀ fuel x w' o, FMI2.step m fuel w (.getReal (some [vr]) 1 (some [x])) = .ret (w', .OK, o) → o = .reals (some [v])

/-- Whenever the importer can read the integer variable `vr`, it gets `v`. -/
def FMI2.ShowsInteger (m : Model F D) (w : FMI2.World F D) (vr : Nat) (v : Int) : Prop :=
  ∀ fuel x w' o, FMI2.step m fuel w (.getInteger (some [vr]) 1 (some [x])) = .ret (w', .OK, o) →
    o = .ints (some [v])

/-- Whenever the importer can read the scalar variable `vr` of type `t`, it gets `v`. -/
def FMI3.Shows (m : Model F D) (w : FMI3.World F D) (t : VType) (vr : Nat) (v : t.Val F) : Prop :=
  ∀ fuel x w' o, FMI3.step m fuel w (.get t (some [vr]) 1 (some [x]) 1) = .ret (w', .OK, o) →
    o = .values t (some [v])

end Verif
