import Verif.Tools.Merge

/-!
# What the build produces: `build/build.py` and the list of the models in CMakeLists.txt

Only which FMUs are built for which platform; the compilation is not modelled.
-/

namespace Verif.Merge

/-- The platforms one can build for, build/build.py 15 -/
def choices : List Platform :=
  [⟨.windows, .x86⟩, ⟨.windows, .x86_64⟩, ⟨.linux, .x86_64⟩, ⟨.linux, .aarch64⟩, ⟨.darwin, .x86_64⟩, ⟨.darwin, .aarch64⟩]

/-- The FMI versions for which FMUs are built, build/build.py 117-120 -/
def buildVersions (p : Platform) : List Nat :=
  (if [⟨.linux, .x86_64⟩, ⟨.windows, .x86⟩, ⟨.windows, .x86_64⟩, ⟨.darwin, .x86_64⟩].contains p then [2] else []) ++ [3]

/-- `MODEL_NAMES`, CMakeLists.txt 96-100 -/
def modelNames (major : Nat) : List (List UInt8) :=
  [bytes (chars! "BouncingBall"), bytes (chars! "Dahlquist"), bytes (chars! "Feedthrough"), bytes (chars! "Resource"),
    bytes (chars! "Stair"), bytes (chars! "VanDerPol")] ++
  if major > 2 then [bytes (chars! "Clocks"), bytes (chars! "Roberts"), bytes (chars! "StateSpace")] else []

end Verif.Merge
