import Verif.Models.BouncingBall
import Verif.Models.Dahlquist
import Verif.Models.Stair
import Verif.Models.VanDerPol
import Verif.Models.Roberts
import Verif.Models.Resource
import Verif.Models.Clocks
import Verif.Models.StateSpace
import Verif.Models.Feedthrough

/-! # The Reference FMUs, CMakeLists.txt -/

namespace Verif

/-- The FMUs built for FMI 2.0, CMakeLists.txt 96. -/
inductive RefFMU2 {F : Type} [Arith F] : {D : Type} → Model F D → Prop
  | bouncingBall : RefFMU2 BouncingBall.model
  | dahlquist : RefFMU2 Dahlquist.model
  | feedthrough : RefFMU2 (Feedthrough.model false)
  | resource (fs : Resource.FileSystem) : RefFMU2 (Resource.model false fs)
  | stair : RefFMU2 Stair.model
  | vanDerPol : RefFMU2 VanDerPol.model

/-- The FMUs built for FMI 3.0, CMakeLists.txt 96-99. -/
inductive RefFMU3 {F : Type} [Arith F] : {D : Type} → Model F D → Prop
  | bouncingBall : RefFMU3 BouncingBall.model
  | clocks : RefFMU3 Clocks.model
  | dahlquist : RefFMU3 Dahlquist.model
  | feedthrough : RefFMU3 (Feedthrough.model true)
  | resource (fs : Resource.FileSystem) : RefFMU3 (Resource.model true fs)
  | roberts : RefFMU3 Roberts.model
  | stair : RefFMU3 Stair.model
  | stateSpace : RefFMU3 StateSpace.model
  | vanDerPol : RefFMU3 VanDerPol.model

/-- The FMUs built for FMI 3.0 whose variables are all scalars: every one but StateSpace
(StateSpace/FMI3.xml is the only model description with `Dimension` elements). -/
inductive ScalarFMU3 {F : Type} [Arith F] : {D : Type} → Model F D → Prop
  | bouncingBall : ScalarFMU3 BouncingBall.model
  | clocks : ScalarFMU3 Clocks.model
  | dahlquist : ScalarFMU3 Dahlquist.model
  | feedthrough : ScalarFMU3 (Feedthrough.model true)
  | resource (fs : Resource.FileSystem) : ScalarFMU3 (Resource.model true fs)
  | roberts : ScalarFMU3 Roberts.model
  | stair : ScalarFMU3 Stair.model
  | vanDerPol : ScalarFMU3 VanDerPol.model

theorem ScalarFMU3.ref {F : Type} [Arith F] {D : Type} {m : Model F D} (h : ScalarFMU3 m) :
    RefFMU3 m := by
  cases h <;> constructor

end Verif
