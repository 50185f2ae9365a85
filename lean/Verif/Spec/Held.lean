import Verif.Spec.Independent

/-!
# Specification: variables that only the importer changes

`Held m t r v`: the variable `r` of type `t` is a parameter or an input with start value `v`. What its
value must be after a history is calculated by `Mem.after` from the calls alone.
-/

namespace Verif
variable {F : Type} [Arith F]

/-- The outputs of Feedthrough: type, value reference of the input, value reference of the output, start
value. From Feedthrough/FMI2.xml and FMI3.xml. -/
inductive FeedPort : (v3 : Bool) → (t : VType) → (input output : Nat) → t.Val F → Prop
  | f64cont {v3} : FeedPort v3 .float64 7 8 (Arith.lit 0)
  | f64disc {v3} : FeedPort v3 .float64 9 10 (Arith.lit 0)
  | int32 {v3} : FeedPort v3 .int32 19 20 (0 : Int)
  | boolean {v3} : FeedPort v3 .boolean 27 28 false
  | string {v3} : FeedPort v3 .string 29 30 (some (Feedthrough.ascii "Set me!"))
  | enum2 : FeedPort false .int32 33 34 (1 : Int)
  | f32cont : FeedPort true .float32 1 2 (0 : UInt32)
  | f32disc : FeedPort true .float32 3 4 (0 : UInt32)
  | int8 : FeedPort true .int8 11 12 (0 : Int)
  | uint8 : FeedPort true .uint8 13 14 (0 : Int)
  | int16 : FeedPort true .int16 15 16 (0 : Int)
  | uint16 : FeedPort true .uint16 17 18 (0 : Int)
  | uint32 : FeedPort true .uint32 21 22 (0 : Int)
  | int64 : FeedPort true .int64 23 24 (0 : Int)
  | uint64 : FeedPort true .uint64 25 26 (0 : Int)
  | binary : FeedPort true .binary 31 32 (⟨3, some (Feedthrough.ascii "foo")⟩ : CBinary)
  | enum3 : FeedPort true .int64 33 34 (1 : Int)

/-- Parameters and inputs with their start values, from the `FMI2.xml` and `FMI3.xml` of the FMUs. Not
listed are the parameter `g` of BouncingBall, which the FMU itself sets to zero when the ball comes to
rest, the input `input2` of Clocks, which the FMU sets to zero when it uses it, and the array parameters
of StateSpace. -/
inductive Held : {D : Type} → Model F D → (t : VType) → Nat → t.Val F → Prop
  | bouncingBall_e : Held BouncingBall.model .float64 6 (Arith.lit (7 / 10))
  | dahlquist_k : Held Dahlquist.model .float64 3 (Arith.lit 1)
  | vanDerPol_mu : Held VanDerPol.model .float64 5 (Arith.lit 1)
  | roberts_dae : Held Roberts.model .boolean 1 false
  | feedthrough_fixed {v3} : Held (Feedthrough.model v3) .float64 5 (Arith.lit 0)
  | feedthrough_tunable {v3} : Held (Feedthrough.model v3) .float64 6 (Arith.lit 0)
  | feedthrough_input {v3 t i o start} : FeedPort v3 t i o start → Held (Feedthrough.model v3) t i start

/-- The assignment of a value to a variable. -/
abbrev Assignment (F : Type) := (t : VType) × Nat × t.Val F

/-- The effect of an assignment on the variable `r` of type `t`. -/
def assign (t : VType) (r : Nat) (now : t.Val F) (a : Assignment F) : t.Val F :=
  if h : a.1 = t then if a.2.1 = r then t.meant (h ▸ a.2.2) else now else now

/-- What an importer remembers about a variable: the value it has, the values in the saved FMU states
and the values in the serialized FMU states. -/
structure Mem (V : Type) where
  now : V
  saved : Nat → Option V
  bytes : Nat → Option V

/-- Nothing but the start value is known of a new instance. -/
def Mem.new {V : Type} (start : V) : Mem V := ⟨start, fun _ => none, fun _ => none⟩

namespace FMI2

/-- The assignments a call makes: the first `n` pairs of a value reference and a value. -/
def Op.assignments : Op F → List (Assignment F)
  | .setReal vr n v => (((vr.getD []).zip (v.getD [])).take n).map fun p => ⟨.float64, p⟩
  | .setInteger vr n v => (((vr.getD []).zip (v.getD [])).take n).map fun p => ⟨.int32, p⟩
  | .setBoolean vr n v => (((vr.getD []).zip (v.getD [])).take n).map fun p =>
      ⟨.boolean, p.1, decide (p.2 ≠ 0)⟩
  | .setString vr n v => (((vr.getD []).zip (v.getD [])).take n).map fun p => ⟨.string, p⟩
  | _ => []

/-- What the importer remembers after a successful call. -/
def Mem.after {t : VType} (r : Nat) (start : t.Val F) (k : Mem (t.Val F)) : Op F → Mem (t.Val F)
  | .reset => { k with now := start }
  | .getFMUstate i => { k with saved := fun j => if j = i then some k.now else k.saved j }
  | .setFMUstate i => { k with now := (k.saved i).getD k.now }
  | .freeFMUstate i => { k with saved := fun j => if j = i then none else k.saved j }
  | .serializeFMUstate i b _ => { k with bytes := fun j => if j = b then k.saved i else k.bytes j }
  | .deSerializeFMUstate b _ i => { k with saved := fun j => if j = i then k.bytes b else k.saved j }
  | op => { k with now := op.assignments.foldl (assign t r) k.now }

end FMI2

namespace FMI3

/-- The assignments a call makes: the first `n` pairs of a value reference and a value. -/
def Op.assignments : Op F → List (Assignment F)
  | .set t vr n v _ => (((vr.getD []).zip (v.getD [])).take n).map fun p => ⟨t, p⟩
  | _ => []

/-- What the importer remembers after a successful call. -/
def Mem.after {t : VType} (r : Nat) (start : t.Val F) (k : Mem (t.Val F)) : Op F → Mem (t.Val F)
  | .reset => { k with now := start }
  | .getFMUState i => { k with saved := fun j => if j = i then some k.now else k.saved j }
  | .setFMUState i => { k with now := (k.saved i).getD k.now }
  | .freeFMUState i => { k with saved := fun j => if j = i then none else k.saved j }
  | .serializeFMUState i b _ => { k with bytes := fun j => if j = b then k.saved i else k.bytes j }
  | .deserializeFMUState b _ i => { k with saved := fun j => if j = i then k.bytes b else k.saved j }
  | op => { k with now := op.assignments.foldl (assign t r) k.now }

/-- What is remembered after a successful call about an aspect of the instance that is `start` in a new
instance and that calls which neither reset the instance nor handle saved states change by `upd`. -/
def memAfter {V : Type} (start : V) (upd : V → Op F → V) (k : Mem V) : Op F → Mem V
  | .reset => { k with now := start }
  | .getFMUState i => { k with saved := fun j => if j = i then some k.now else k.saved j }
  | .setFMUState i => { k with now := (k.saved i).getD k.now }
  | .freeFMUState i => { k with saved := fun j => if j = i then none else k.saved j }
  | .serializeFMUState i b _ => { k with bytes := fun j => if j = b then k.saved i else k.bytes j }
  | .deserializeFMUState b _ i => { k with saved := fun j => if j = i then k.bytes b else k.saved j }
  | op => { k with now := upd k.now op }

end FMI3
end Verif
