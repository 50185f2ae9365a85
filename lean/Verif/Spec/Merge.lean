import Verif.Tools.Merge
import Verif.Spec.BinaryPath

/-!
# Specification: what a merged FMU has to contain
-/

namespace Verif.Merge
open Verif.Importer (System Architecture)

/-- The archive has the file `p` with the content `c`: it is the last entry with that name. -/
def Holds (archive : Entries) (p : Path) (c : List UInt8) : Prop :=
  ∃ before after, archive = before ++ (p, c) :: after ∧ ∀ e ∈ after, e.1 ≠ p

/-- The platforms for which the Reference FMUs are released. -/
def Released : (major : Nat) → System → Architecture → Prop
  | 2, .windows, .x86 | 2, .windows, .x86_64 | 2, .linux, .x86_64 | 2, .darwin, .x86_64 => True
  | 3, .windows, .x86 | 3, .windows, .x86_64 | 3, .linux, .x86_64 | 3, .darwin, .x86_64 => True
  | 3, .linux, .aarch64 | 3, .darwin, .aarch64 => True
  | _, _, _ => False

/-- All files below `binaries` are in the directory into which the build for the platform puts the library (CMakeLists.txt 176-187). -/
def BuiltFor (major : Nat) (p : Platform) (archive : Entries) : Prop :=
  ∀ e ∈ archive, ∀ dir rest, e.1 = Spec.ascii "binaries" :: dir :: rest → fmiPlatform major p = some dir

/-- The version of the sources according to git: the only tag, or the hash of the commit if there is no tag. -/
def Version (git : Git) (v : List UInt8) : Prop :=
  v ≠ [] ∧ (∀ c ∈ v, 32 < c) ∧ ((git.tags = v ++ [10]) ∨ (git.tags = [] ∧ git.hash = v ++ [10]))

/-- `t` is `before ++ part ++ after`, and `part` occurs nowhere else in it. -/
def Once (t before part after : List UInt8) : Prop :=
  t = before ++ part ++ after ∧ ∀ x y, t = x ++ part ++ y → x = before

/-- The names of the FMUs with a plot in the documentation. -/
def Plotted (filename : List UInt8) : Prop :=
  ∃ model ∈ ["BouncingBall", "Dahlquist", "Feedthrough", "StateSpace", "Resource", "Stair", "VanDerPol"],
    filename = Spec.ascii model ++ Spec.ascii ".fmu"

end Verif.Merge
