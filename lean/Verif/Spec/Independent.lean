import Verif.Spec.Observe
import Verif.RefFMUs

/-!
# Specification: variables, reading and setting them one at a time

The tables list the scalar variables of the FMUs' model descriptions. A variable is *independent* if
it is an input, a parameter, a state, a constant or the time: its value is not calculated from other
variables.
-/

namespace Verif
variable {F : Type} [Arith F] [HasInf F]

/-- The independent variables, from the `FMI2.xml` and `FMI3.xml` of the FMUs. Not listed for Roberts
are `y3`, which is calculated from `y1` and `y2` unless `dae` is set, and the never calculated
`g1`, `g2`. For Clocks the tick counters are listed as well: they only change when a clock ticks. -/
inductive Independent : {D : Type} → Model F D → List (VType × Nat) → Prop
  | bouncingBall : Independent BouncingBall.model
      [(.float64, 0), (.float64, 1), (.float64, 3), (.float64, 5), (.float64, 6), (.float64, 7)]
  | clocks : Independent Clocks.model
      [(.float64, 0), (.int32, 2001), (.int32, 2002), (.int32, 2003), (.int32, 2004), (.int32, 2005),
        (.int32, 2006), (.int32, 2007)]
  | dahlquist : Independent Dahlquist.model [(.float64, 0), (.float64, 1), (.float64, 3)]
  | feedthrough2 : Independent (Feedthrough.model false)
      [(.float64, 0), (.float64, 5), (.float64, 6), (.float64, 7), (.float64, 9), (.int32, 19),
        (.boolean, 27), (.string, 29), (.int32, 33)]
  | feedthrough3 : Independent (Feedthrough.model true)
      [(.float64, 0), (.float32, 1), (.float32, 3), (.float64, 5), (.float64, 6), (.float64, 7),
        (.float64, 9), (.int8, 11), (.uint8, 13), (.int16, 15), (.uint16, 17), (.int32, 19),
        (.uint32, 21), (.int64, 23), (.uint64, 25), (.boolean, 27), (.string, 29), (.binary, 31),
        (.int64, 33)]
  | roberts : Independent Roberts.model
      [(.float64, 0), (.boolean, 1), (.float64, 2), (.float64, 4), (.float64, 7)]
  | stair : Independent Stair.model [(.float64, 0), (.int32, 1)]
  | vanDerPol : Independent VanDerPol.model
      [(.float64, 0), (.float64, 1), (.float64, 3), (.float64, 5)]

/-- The variable that the importer means by a value: the bytes of a binary value are the first `size`
bytes it points to. -/
def VType.meant : (t : VType) → t.Val F → t.Val F
  | .binary => fun b => ⟨b.size, b.data.map (List.take b.size)⟩
  | .float32 | .float64 | .int8 | .uint8 | .int16 | .uint16 | .int32 | .uint32 | .int64 | .uint64
  | .boolean | .string => fun v => v

namespace FMI2
variable {D : Type}

/-- Reading the scalar variable `vr` of type `t` succeeds and gives `v`. -/
def Reads (m : Model F D) (w : World F D) : (t : VType) → Nat → t.Val F → Prop
  | .float64 => fun vr v => ReadsReal m w vr v
  | .int32 => fun vr v => ReadsInteger m w vr v
  | .boolean => fun vr v => ∀ fuel x, ∃ w', step m fuel w (.getBoolean (some [vr]) 1 (some [x])) =
      .ret (w', .OK, .ints (some [if v then 1 else 0]))
  | .string => fun vr v => ∀ fuel x, ∃ w', step m fuel w (.getString (some [vr]) 1 (some [x])) =
      .ret (w', .OK, .strs (some [v]))
  | _ => fun _ _ => False

/-- The calls that set the scalar variable `vr` of type `t` to `v`. Any non-zero `fmi2Boolean` is true. -/
inductive SetCall : Op F → (t : VType) → Nat → t.Val F → Prop
  | real (vr : Nat) (v : F) : SetCall (.setReal (some [vr]) 1 (some [v])) .float64 vr v
  | integer (vr : Nat) (v : Int) : SetCall (.setInteger (some [vr]) 1 (some [v])) .int32 vr v
  | boolean (vr : Nat) (i : Int) :
      SetCall (.setBoolean (some [vr]) 1 (some [i])) .boolean vr (decide (i ≠ 0))
  | string (vr : Nat) (v : Ptr UInt8) : SetCall (.setString (some [vr]) 1 (some [v])) .string vr v

end FMI2
end Verif
