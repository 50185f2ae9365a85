import Verif.Spec.Reach

/-!
# Specification: what the importer sees when it reads variables
-/

namespace Verif
variable {F D : Type} [Arith F] [HasInf F]

/-- Whenever the importer can read the time variable (value reference 0), it gets `t`. -/
def FMI2.ReadsTime (m : Model F D) (w : FMI2.World F D) (t : F) : Prop :=
  ∀ fuel x w' o, FMI2.step m fuel w (.getReal (some [0]) 1 (some [x])) = .ret (w', .OK, o) →
    o = .reals (some [t])

/-- Whenever the importer can read the time variable (value reference 0), it gets `t`. -/
def FMI3.ReadsTime (m : Model F D) (w : FMI3.World F D) (t : F) : Prop :=
  ∀ fuel x w' o, FMI3.step m fuel w (.get .float64 (some [0]) 1 (some [x]) 1) = .ret (w', .OK, o) →
    o = .values .float64 (some [t])

/-- Reading the real variable `vr` succeeds and gives `v`. -/
def FMI2.ReadsReal (m : Model F D) (w : FMI2.World F D) (vr : Nat) (v : F) : Prop :=
  ∀ fuel x, ∃ w', FMI2.step m fuel w (.getReal (some [vr]) 1 (some [x])) =
    .ret (w', .OK, .reals (some [v]))

/-- Reading the integer variable `vr` succeeds and gives `v`. -/
def FMI2.ReadsInteger (m : Model F D) (w : FMI2.World F D) (vr : Nat) (v : Int) : Prop :=
  ∀ fuel x, ∃ w', FMI2.step m fuel w (.getInteger (some [vr]) 1 (some [x])) =
    .ret (w', .OK, .ints (some [v]))

/-- Reading the scalar variable `vr` of type `t` succeeds and gives `v`. -/
def FMI3.Reads (m : Model F D) (w : FMI3.World F D) (t : VType) (vr : Nat) (v : t.Val F) : Prop :=
  ∀ fuel x, ∃ w', FMI3.step m fuel w (.get t (some [vr]) 1 (some [x]) 1) =
    .ret (w', .OK, .values t (some [v]))

end Verif
