import Verif.Lemmas.Views
import Verif.Models.Feedthrough

/-! # Reading the variables of the Feedthrough FMU -/

namespace Verif.Feedthrough
open Verif
variable {F : Type} [Arith F]

/-- What `calculateValues` does to the data. -/
def upd (d : Data F) : Data F :=
  { d with
    f32ContOut := d.f32ContIn
    f32DiscOut := d.f32DiscIn
    f64ContOut := d.f64ContIn
    f64DiscOut := d.f64DiscIn
    int8Out := d.int8In
    uint8Out := d.uint8In
    int16Out := d.int16In
    uint16Out := d.uint16In
    int32Out := d.int32In
    uint32Out := d.uint32In
    int64Out := d.int64In
    uint64Out := d.uint64In
    boolOut := d.boolIn
    strOut := d.strIn
    binOut := d.binIn
    enumOut := d.enumIn }

theorem upd_upd (d : Data F) : upd (upd d) = upd d := rfl

theorem calc_upd {b : Bool} : (model b : Model F (Data F)).Calc upd := fun _ _ => rfl

theorem view_fixed {b : Bool} : (model b : Model F (Data F)).View upd .float64 5 fun _ d => d.fixedParam :=
  fun _ _ _ _ _ => rfl

end Verif.Feedthrough
