import Verif.Importer.BinaryPath
import Verif.Spec.Uri

/-!
# Specification: where the FMI standards put the binary of an FMU

FMI 2.0.4, section 2.3.1 and FMI 3.0, section 2.5.1.4.2: the binary is the file `binaries/<platform>/<modelIdentifier>.<extension>`.
-/

namespace Verif.Spec
open Importer

/-- The characters that separate the names in a path: a backslash only on Windows. -/
def separators : System → List UInt8
  | .windows => [47, 92]
  | .darwin => [47]
  | .linux => [47]

/-- `path` is `dir` followed by `name`, with one separator between them unless `dir` already ends with one. -/
def Joins (sys : System) (dir name path : List UInt8) : Prop :=
  (∃ a s, dir = a ++ [s] ∧ s ∈ separators sys ∧ path = dir ++ name) ∨
    ((∀ a s, dir = a ++ [s] → s ∉ separators sys) ∧ ∃ s ∈ separators sys, path = dir ++ s :: name)

/-- `path` is the path of the file or directory that is reached from `dir` through `names`. -/
inductive Reaches (sys : System) : List UInt8 → List (List UInt8) → List UInt8 → Prop
  | here {dir} : Reaches sys dir [] dir
  | next {dir name names path path'} : Joins sys dir name path → Reaches sys path names path' →
      Reaches sys dir (name :: names) path'

/-- The platform directory. FMI 1.0 and 2.0 do not name one for `aarch64`; the one for 64 bits is used. -/
def platformName : (major : Nat) → System → Architecture → String
  | 3, .windows, .aarch64 => "aarch64-windows"
  | 3, .windows, .x86_64 => "x86_64-windows"
  | 3, .windows, .x86 => "x86-windows"
  | 3, .darwin, .aarch64 => "aarch64-darwin"
  | 3, .darwin, .x86_64 => "x86_64-darwin"
  | 3, .darwin, .x86 => "x86-darwin"
  | 3, .linux, .aarch64 => "aarch64-linux"
  | 3, .linux, .x86_64 => "x86_64-linux"
  | 3, .linux, .x86 => "x86-linux"
  | _, .windows, .x86 => "win32"
  | _, .windows, _ => "win64"
  | _, .darwin, .x86 => "darwin32"
  | _, .darwin, _ => "darwin64"
  | _, .linux, .x86 => "linux32"
  | _, .linux, _ => "linux64"

/-- The extension of a shared library. -/
def libraryExtension : System → String
  | .windows => ".dll"
  | .darwin => ".dylib"
  | .linux => ".so"

/-- The path of the binary of the FMU in directory `dir`. -/
def BinaryOf (sys : System) (arch : Architecture) (major : Nat) (dir modelIdentifier path : List UInt8) : Prop :=
  Reaches sys dir [ascii "binaries", ascii (platformName major sys arch), modelIdentifier ++ ascii (libraryExtension sys)] path

end Verif.Spec
