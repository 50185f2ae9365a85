import Verif.Importer.CoSim

/-!
# Importer: the simulation programs of the Reference FMUs

What examples/<FMU>.c adds to the programs examples/simulate_fmi2_cs.c and examples/simulate_fmi3_cs.c, with the constants of
<FMU>/config.h. If `NO_INPUTS` is defined, there are no start values and no inputs, examples/util.h 269-279. Not here:
examples/StateSpace.c (the number of values it asks for depends on a value it has read before), see Importer/StateSpace.lean, and
examples/Clocks.c, which belongs to examples/scs_synchronous.c and examples/scs_threaded.c.
-/

namespace Verif.Importer.CoSim
open Verif

variable {F : Type} [Arith F]

/-- examples/BouncingBall.c 17-36 with FMI 2.0; BouncingBall/config.h: `FIXED_SOLVER_STEP`, `DEFAULT_STOP_TIME`. -/
def bouncingBall2 : Program F (FMI2.Op F) where
  record := [.getReal (some [1, 3]) 2 (some [Arith.lit 0, Arith.lit 0])]
  h := Arith.lit (1/1000)
  stopTime := Arith.lit 3

/-- examples/BouncingBall.c 17-36 with FMI 3.0. -/
def bouncingBall3 : Program F (FMI3.Op F) where
  record := [.get .float64 (some [1, 3]) 2 (some [Arith.lit 0, Arith.lit 0]) 2]
  h := Arith.lit (1/1000)
  stopTime := Arith.lit 3

/-- examples/Dahlquist.c 17-36 with FMI 2.0; Dahlquist/config.h. -/
def dahlquist2 : Program F (FMI2.Op F) where
  record := [.getReal (some [1]) 1 (some [Arith.lit 0])]
  h := Arith.lit (1/10)
  stopTime := Arith.lit 10

/-- examples/Dahlquist.c 17-36 with FMI 3.0. -/
def dahlquist3 : Program F (FMI3.Op F) where
  record := [.get .float64 (some [1]) 1 (some [Arith.lit 0]) 1]
  h := Arith.lit (1/10)
  stopTime := Arith.lit 10

/-- examples/VanDerPol.c 17-36 with FMI 2.0; VanDerPol/config.h. -/
def vanDerPol2 : Program F (FMI2.Op F) where
  record := [.getReal (some [1, 3]) 2 (some [Arith.lit 0, Arith.lit 0])]
  h := Arith.lit (1/100)
  stopTime := Arith.lit 20

/-- examples/VanDerPol.c 17-36 with FMI 3.0. -/
def vanDerPol3 : Program F (FMI3.Op F) where
  record := [.get .float64 (some [1, 3]) 2 (some [Arith.lit 0, Arith.lit 0]) 2]
  h := Arith.lit (1/100)
  stopTime := Arith.lit 20

/-- examples/Stair.c 17-36 with FMI 2.0; Stair/config.h. -/
def stair2 : Program F (FMI2.Op F) where
  record := [.getInteger (some [1]) 1 (some [0])]
  h := Arith.lit (1/5)
  stopTime := Arith.lit 10

/-- examples/Stair.c 17-36 with FMI 3.0. -/
def stair3 : Program F (FMI3.Op F) where
  record := [.get .int32 (some [1]) 1 (some [(0 : Int)]) 1]
  h := Arith.lit (1/5)
  stopTime := Arith.lit 10

/-- examples/Resource.c 17-36 with FMI 2.0; Resource/config.h. -/
def resource2 : Program F (FMI2.Op F) where
  record := [.getInteger (some [1]) 1 (some [0])]
  h := Arith.lit 1
  stopTime := Arith.lit 1

/-- examples/Resource.c 17-36 with FMI 3.0. -/
def resource3 : Program F (FMI3.Op F) where
  record := [.get .int32 (some [1]) 1 (some [(0 : Int)]) 1]
  h := Arith.lit 1
  stopTime := Arith.lit 1

namespace Feedthrough

/-- `value` in `applyContinuousInputs` with `afterEvent = false`, examples/Feedthrough.c 59-69. The comparison `time == 0.5` of the code is
`¬(time < 0.5) ∧ time <= 0.5`. -/
def value (time : F) : F :=
  if time <. Arith.lit (1/2) then Arith.lit 0
  else if time <=. Arith.lit (1/2) then Arith.lit 0
  else if time <. Arith.lit 1 then Arith.lit 2 -. Arith.lit 2 *. (time -. Arith.lit (1/2))
  else Arith.lit 1

/-- `before_step`, examples/Feedthrough.c 97. -/
def before (time : F) : Bool := time <. Arith.lit 1

/-- The tunable parameter, examples/Feedthrough.c 117, 138. -/
def tunable (time : F) : F := if time <. Arith.lit (3/2) then Arith.lit 0 else Arith.lit (-1)

/-- The string input, examples/Feedthrough.c 129, 179. -/
def text (time : F) : Ptr UInt8 :=
  some (if before time then "FMI is awesome!" else "FMI is still awesome!").toUTF8.toList

/-- The binary input, examples/Feedthrough.c 183-184. -/
def bytes (time : F) : CBinary := ⟨3, some (if before time then "foo" else "bar").toUTF8.toList⟩

/-- An integer input: the smallest and the largest value of the type. examples/Feedthrough.c 93-192. -/
def range (lo hi : Int) (time : F) : Int := if before time then lo else hi

end Feedthrough

open Feedthrough in
/-- examples/Feedthrough.c 33-53, 55-91, 93-192, 194-340 with FMI 2.0; Feedthrough/config.h. The call in line 118 passes two value
references and two values but announces one. -/
def feedthrough2 : Program F (FMI2.Op F) where
  start := [.setReal (some [5]) 1 (some [Arith.lit 1])]
  inputs time := [
    .setReal (some [7]) 1 (some [value time]),
    .setReal (some [6, 9]) 1 (some [tunable time, if before time then Arith.lit 0 else Arith.lit 1]),
    .setInteger (some [19]) 1 (some [range (-2147483648) 2147483647 time]),
    .setBoolean (some [27]) 1 (some [if before time then 0 else 1]),
    .setString (some [29]) 1 (some [text time])]
  record := [
    .getReal (some [8, 10]) 2 (some [Arith.lit 0, Arith.lit 0]),
    .getInteger (some [20, 34]) 2 (some [0, 0]),
    .getBoolean (some [28]) 1 (some [0]),
    .getString (some [30]) 1 (some [none])]
  h := Arith.lit (1/10)
  stopTime := Arith.lit 2

open Feedthrough in
/-- examples/Feedthrough.c 33-53, 55-91, 93-192, 194-340 with FMI 3.0. `f32` is the conversion of `value` to a 32-bit float (line 80), given by
its bits; those of `1.0f` are `0x3f800000`. -/
def feedthrough3 (f32 : F → UInt32) : Program F (FMI3.Op F) where
  start := [.set .float64 (some [5]) 1 (some [Arith.lit 1]) 1]
  inputs time := [
    .set .float32 (some [1]) 1 (some [f32 (value time)]) 1,
    .set .float64 (some [7]) 1 (some [value time]) 1,
    .set .float32 (some [3]) 1 (some [if before time then (0 : UInt32) else (0x3f800000 : UInt32)]) 1,
    .set .float64 (some [6, 9]) 2 (some [tunable time, if before time then Arith.lit 0 else Arith.lit 1]) 2,
    .set .int8 (some [11]) 1 (some [range (-128) 127 time]) 1,
    .set .uint8 (some [13]) 1 (some [range 0 255 time]) 1,
    .set .int16 (some [15]) 1 (some [range (-32768) 32767 time]) 1,
    .set .uint16 (some [17]) 1 (some [range 0 65535 time]) 1,
    .set .int32 (some [19]) 1 (some [range (-2147483648) 2147483647 time]) 1,
    .set .uint32 (some [21]) 1 (some [range 0 4294967295 time]) 1,
    .set .int64 (some [23]) 1 (some [range (-9223372036854775808) 9223372036854775807 time]) 1,
    .set .uint64 (some [25]) 1 (some [range 0 18446744073709551615 time]) 1,
    .set .boolean (some [27]) 1 (some [!before time]) 1,
    .set .string (some [29]) 1 (some [text time]) 1,
    .set .binary (some [31]) 1 (some [bytes time]) 1,
    .set .int64 (some [33]) 1 (some [range 1 2 time]) 1]
  record := [
    .get .float32 (some [2, 4]) 2 (some [(0 : UInt32), (0 : UInt32)]) 2,
    .get .float64 (some [8, 10]) 2 (some [Arith.lit 0, Arith.lit 0]) 2,
    .get .int8 (some [12]) 1 (some [(0 : Int)]) 1,
    .get .uint8 (some [14]) 1 (some [(0 : Int)]) 1,
    .get .int16 (some [16]) 1 (some [(0 : Int)]) 1,
    .get .uint16 (some [18]) 1 (some [(0 : Int)]) 1,
    .get .int32 (some [20]) 1 (some [(0 : Int)]) 1,
    .get .uint32 (some [22]) 1 (some [(0 : Int)]) 1,
    .get .int64 (some [24, 34]) 2 (some [(0 : Int), (0 : Int)]) 2,
    .get .uint64 (some [26]) 1 (some [(0 : Int)]) 1,
    .get .boolean (some [28]) 1 (some [false]) 1,
    .get .string (some [30]) 1 (some [(none : Ptr UInt8)]) 1,
    .get .binary (some [32]) 1 (some [(⟨0, none⟩ : CBinary)]) 1]
  h := Arith.lit (1/10)
  stopTime := Arith.lit 2

end Verif.Importer.CoSim
