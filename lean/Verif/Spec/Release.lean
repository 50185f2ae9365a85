import Verif.Spec.Merge
import Verif.Tools.Build

/-!
# Specification: the release of the Reference FMUs
-/

namespace Verif.Merge
open Spec (ascii)

/-- The Reference FMUs. -/
def referenceFMUs : (major : Nat) → List String
  | 2 => ["BouncingBall", "Dahlquist", "Feedthrough", "Resource", "Stair", "VanDerPol"]
  | 3 => ["BouncingBall", "Clocks", "Dahlquist", "Feedthrough", "Resource", "Roberts", "Stair", "StateSpace", "VanDerPol"]
  | _ => []

/-- The script finds what the builds for all platforms have produced: the FMU of every model (with a model description) for every
platform and FMI version that is built. -/
structure FromBuild (w : World) (major : Nat) : Prop where
  listing : ∀ f, f ∈ w.listing ↔ ∃ model ∈ modelNames major, f = model ++ ascii ".fmu"
  fmu : ∀ p ∈ choices, major ∈ buildVersions p → ∀ model ∈ modelNames major,
    ∃ a, w.fmu p (model ++ ascii ".fmu") = some a ∧ ∃ t, Holds a [ascii "modelDescription.xml"] t

end Verif.Merge
