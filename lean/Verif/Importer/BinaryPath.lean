import Verif.Importer.LogBuffer

/-!
# Importer: `FMIPlatformBinaryPath`, src/FMI.c 399-419

Strings are the bytes before the terminator. Simplification: the length of the path fits into an `int`.
-/

namespace Verif.Importer
open Verif

/-- The systems that include/FMI.h 26-43 distinguishes. -/
inductive System
  | windows | darwin | linux
  deriving DecidableEq, Repr

/-- The architectures that include/FMI.h 45-56 distinguishes. -/
inductive Architecture
  | aarch64 | x86_64 | x86
  deriving DecidableEq, Repr

/-- `FMI_SYSTEM`, include/FMI.h 27, 32, 37 -/
def System.name : System → String
  | .windows => "windows"
  | .darwin => "darwin"
  | .linux => "linux"

/-- `FMI_PLATFORM_SYSTEM`, include/FMI.h 28, 33, 38 -/
def System.short : System → String
  | .windows => "win"
  | .darwin => "darwin"
  | .linux => "linux"

/-- `FMI_FILE_SEPARATOR`, include/FMI.h 29, 34, 39 -/
def System.separator : System → String
  | .windows => "\\"
  | .darwin => "/"
  | .linux => "/"

/-- `FMI_SHARED_LIBRARY_EXTENSION`, include/FMI.h 30, 35, 40 -/
def System.extension : System → String
  | .windows => ".dll"
  | .darwin => ".dylib"
  | .linux => ".so"

/-- `FMI_ARCHITECTURE`, include/FMI.h 46, 49, 52 -/
def Architecture.name : Architecture → String
  | .aarch64 => "aarch64"
  | .x86_64 => "x86_64"
  | .x86 => "x86"

/-- `FMI_PLATFORM_BITS`, include/FMI.h 47, 50, 53 -/
def Architecture.bits : Architecture → String
  | .aarch64 => "64"
  | .x86_64 => "64"
  | .x86 => "32"

/-- `FMIPlatformBinaryPath`, src/FMI.c 399-419; `version` is the major version. The last character of an empty `unzipdir` is read
before the beginning of the string. -/
def platformBinaryPath (sys : System) (arch : Architecture) (unzipdir modelIdentifier : List UInt8) (version : Nat)
    (buffer : Ptr UInt8) (size : Nat) : Outcome (Status × Ptr UInt8) :=
  match unzipdir.getLast? with
  | none => .ub
  | some last =>
    let separator := if last ≠ 47 ∧ last ≠ 92 then ascii sys.separator else []
    let platform := if version < 3 then ascii sys.short ++ ascii arch.bits else ascii arch.name ++ ascii "-" ++ ascii sys.name
    let text := unzipdir ++ separator ++ ascii "binaries" ++ ascii sys.separator ++ platform ++ ascii sys.separator ++
      modelIdentifier ++ ascii sys.extension
    snprintf buffer 0 size text >>- fun buffer =>
    if text.length ≥ size then .ret (.Error, buffer) else .ret (.OK, buffer)

end Verif.Importer
