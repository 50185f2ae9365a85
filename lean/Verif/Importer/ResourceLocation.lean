import Verif.Importer.CoSim
import Verif.Importer.ModelExchange
import Verif.Importer.Programs
import Verif.Models.Resource

/-!
# Importer: the location of the resources that the example programs pass to the FMU

`resourcePath` and `resourceURI` of examples/util.h 82-123, on Linux and macOS. Strings are the bytes before the terminator.
-/

namespace Verif.Importer.ResourceLocation
open Verif CoSim

/-- `strcat` into an array of `size` bytes that holds the string `s`; writing past its end is undefined. examples/util.h 100, 119. -/
def strcat (size : Nat) (s t : List UInt8) : Outcome (List UInt8) :=
  if s.length + t.length + 1 ≤ size then .ret (s ++ t) else .ub

/-- `resourcePath` for FMI 2.0 and FMI 3.0, examples/util.h 82-106. `real` is what `realpath` finds for the directory "resources" of the unzipped FMU, without the terminator;
`none` if there is none. Then the contents of the array are undefined (POSIX, realpath); the model counts this as undefined behaviour. `realpath` is given an
array of 4096 (`PATH_MAX`) bytes and never writes more. -/
def resourcePath (real : Option (List UInt8)) : Outcome (List UInt8) :=
  match real with
  | none => .ub
  | some path => strcat 4096 path (Resource.ascii "/")

/-- `resourceURI`, examples/util.h 108-123. -/
def resourceURI (real : Option (List UInt8)) : Outcome (List UInt8) :=
  resourcePath real >>- fun path => strcat 4096 (Resource.ascii "file://") path

variable {F : Type} [Arith F] [HasInf F]

/-- The Co-Simulation program of Resource with FMI 2.0, examples/simulate_fmi2_cs.c 7-63, examples/Resource.c. -/
def runResource2 (fs : Resource.FileSystem) (real : Option (List UInt8)) (fuel n : Nat) : Outcome (Status × List (Row F (FMI2.Out F))) :=
  resourceURI real >>- fun uri => CoSim.simulate2 (Resource.model false fs) resource2 fuel n (some uri)

/-- The Model Exchange program, examples/simulate_fmi2_me.c 9-216. -/
def runResource2ME (fs : Resource.FileSystem) (real : Option (List UInt8)) (M : Euler.Macros) (fuel n : Nat) : Outcome (Status × List (Row F (FMI2.Out F))) :=
  resourceURI real >>- fun uri => Euler.simulate2 (Resource.model false fs) M resource2 fuel n (some uri)

/-- The Co-Simulation program of Resource with FMI 3.0, examples/simulate_fmi3_cs.c 7-54. -/
def runResource3 (fs : Resource.FileSystem) (real : Option (List UInt8)) (fuel n : Nat) : Outcome (Status × List (Row F (FMI3.Out F))) :=
  resourcePath real >>- fun path => CoSim.simulate3 (Resource.model true fs) resource3 fuel n (some path)

/-- The Model Exchange program, examples/simulate_fmi3_me.c 9-228. -/
def runResource3ME (fs : Resource.FileSystem) (real : Option (List UInt8)) (M : Euler.Macros) (fuel n : Nat) : Outcome (Status × List (Row F (FMI3.Out F))) :=
  resourcePath real >>- fun path => Euler.simulate3 (Resource.model true fs) M resource3 fuel n (some path)

end Verif.Importer.ResourceLocation
