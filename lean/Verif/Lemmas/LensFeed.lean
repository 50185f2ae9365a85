import Verif.Lemmas.Lens

/-! # Setting the variables of Feedthrough -/

namespace Verif.Lens
variable {F : Type} [Arith F]

set_option maxHeartbeats 4000000 in
theorem feedthrough3_sets : (feedthrough3 (F := F)).Sets
      [(.float64, 0), (.float32, 1), (.float32, 3), (.float64, 5), (.float64, 6), (.float64, 7),
        (.float64, 9), (.int8, 11), (.uint8, 13), (.int16, 15), (.uint16, 17), (.int32, 19),
        (.uint32, 21), (.int64, 23), (.uint64, 25), (.boolean, 27), (.string, 29), (.binary, 31),
        (.int64, 33)] := by lens_set

end Verif.Lens
