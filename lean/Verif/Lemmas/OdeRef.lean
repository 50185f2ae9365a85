import Verif.Lemmas.Ode

/-! # The Reference FMUs as systems of ordinary differential equations -/

namespace Verif
variable {F : Type} [Arith F]

def Dahlquist.ode : Ode (Dahlquist.model : Model F (Dahlquist.Data F)) where
  nx := 1
  nz := 0
  calc' d := { d with der_x := Arith.neg d.k *. d.x }
  states d := [d.x]
  derivs d := [Arith.neg d.k *. d.x]
  inds _ := []
  upd d l := { d with x := l.getD 0 d.x }
  maxNX := rfl
  maxNZ := rfl
  numX _ := rfl
  numZ _ := rfl
  lenX _ := rfl
  lenD _ := rfl
  lenZ _ := rfl
  calc_calc _ := rfl
  states_calc _ := rfl
  derivs_calc _ := rfl
  inds_calc _ := rfl
  upd_calc _ _ := rfl
  getStates _ _ _ _ _ := rfl
  getDerivs _ _ _ _ _ := rfl
  setStates _ _ _ _ _ := rfl
  getInds h := absurd h (by decide)

def VanDerPol.ode : Ode (VanDerPol.model : Model F (VanDerPol.Data F)) where
  nx := 2
  nz := 0
  calc' d := { d with
    der_x0 := d.x1, der_x1 := d.mu *. ((Arith.lit 1 -. d.x0 *. d.x0) *. d.x1) -. d.x0 }
  states d := [d.x0, d.x1]
  derivs d := [d.x1, d.mu *. ((Arith.lit 1 -. d.x0 *. d.x0) *. d.x1) -. d.x0]
  inds _ := []
  upd d l := { d with x0 := l.getD 0 d.x0, x1 := l.getD 1 d.x1 }
  maxNX := rfl
  maxNZ := rfl
  numX _ := rfl
  numZ _ := rfl
  lenX _ := rfl
  lenD _ := rfl
  lenZ _ := rfl
  calc_calc _ := rfl
  states_calc _ := rfl
  derivs_calc _ := rfl
  inds_calc _ := rfl
  upd_calc _ _ := rfl
  getStates _ _ _ _ _ := rfl
  getDerivs _ _ _ _ _ := rfl
  setStates _ _ _ _ _ := rfl
  getInds h := absurd h (by decide)

def BouncingBall.ode : Ode (BouncingBall.model : Model F (BouncingBall.Data F)) where
  nx := 2
  nz := 1
  calc' d := d
  states d := [d.h, d.v]
  derivs d := [d.v, d.g]
  inds d := [BouncingBall.indicator d]
  upd d l := { d with h := l.getD 0 d.h, v := l.getD 1 d.v }
  maxNX := rfl
  maxNZ := rfl
  numX _ := rfl
  numZ _ := rfl
  lenX _ := rfl
  lenD _ := rfl
  lenZ _ := rfl
  calc_calc _ := rfl
  states_calc _ := rfl
  derivs_calc _ := rfl
  inds_calc _ := rfl
  upd_calc _ _ := rfl
  getStates _ _ _ _ _ := rfl
  getDerivs _ _ _ _ _ := rfl
  setStates _ _ _ _ _ := rfl
  getInds _ _ _ _ _ := rfl

/-- `calculateValues` of Roberts on the data. -/
def Roberts.calcData (d : Roberts.Data F) : Roberts.Data F :=
  let d := if !d.dae then { d with y3 := Arith.lit 1 -. d.y1 -. d.y2 } else d
  { d with
    der_y1 := Arith.neg Roberts.k1 *. d.y1 +. Roberts.k2 *. d.y2 *. d.y3
    der_y2 := Roberts.k1 *. d.y1 -. Roberts.k2 *. d.y2 *. d.y3 -. Roberts.k3 *. d.y2 *. d.y2
    r := d.y1 +. d.y2 +. d.y3 -. Arith.lit 1 }

def Roberts.ode : Ode (Roberts.model : Model F (Roberts.Data F)) where
  nx := 2
  nz := 2
  calc' := Roberts.calcData
  states d := [d.y1, d.y2]
  derivs d := [(Roberts.calcData d).der_y1, (Roberts.calcData d).der_y2]
  inds d := [d.y1 -. Arith.lit (1 / 10000), (Roberts.calcData d).y3 -. Arith.lit (1 / 100)]
  upd d l := { d with y1 := l.getD 0 d.y1, y2 := l.getD 1 d.y2 }
  maxNX := rfl
  maxNZ := rfl
  numX _ := rfl
  numZ _ := rfl
  lenX _ := rfl
  lenD _ := rfl
  lenZ _ := rfl
  calc_calc d := by cases h : d.dae <;> simp [Roberts.calcData, h]
  states_calc d := by cases h : d.dae <;> simp [Roberts.calcData, h]
  derivs_calc d := by cases h : d.dae <;> simp [Roberts.calcData, h]
  inds_calc d := by cases h : d.dae <;> simp [Roberts.calcData, h]
  upd_calc d l := by cases h : d.dae <;> simp [Roberts.calcData, h]
  getStates _ _ _ _ _ := rfl
  getDerivs _ _ _ _ _ := rfl
  setStates _ _ _ _ _ := rfl
  getInds _ _ _ _ _ := rfl

/-- An FMU without continuous states and event indicators. -/
def Ode.trivial {D : Type} (m : Model F D) (hx : m.maxNX = 0) (hz : m.maxNZ = 0)
    (nx : ∀ mv, m.numContinuousStates mv = 0) (nz : ∀ mv, m.numEventIndicators mv = 0) : Ode m where
  nx := 0
  nz := 0
  calc' d := d
  states _ := []
  derivs _ := []
  inds _ := []
  upd d _ := d
  maxNX := hx
  maxNZ := hz
  numX := nx
  numZ := nz
  lenX _ := rfl
  lenD _ := rfl
  lenZ _ := rfl
  calc_calc _ := rfl
  states_calc _ := rfl
  derivs_calc _ := rfl
  inds_calc _ := rfl
  upd_calc _ _ := rfl
  getStates h := absurd h (by decide)
  getDerivs h := absurd h (by decide)
  setStates h := absurd h (by decide)
  getInds h := absurd h (by decide)

def Stair.ode : Ode (Stair.model : Model F Stair.Data) :=
  .trivial _ rfl rfl (fun _ => rfl) (fun _ => rfl)
def Feedthrough.ode (b : Bool) : Ode (Feedthrough.model b : Model F (Feedthrough.Data F)) :=
  .trivial _ rfl rfl (fun _ => rfl) (fun _ => rfl)
def Resource.ode (b : Bool) (fs) : Ode (Resource.model b fs : Model F Resource.Data) :=
  .trivial _ rfl rfl (fun _ => rfl) (fun _ => rfl)
def Clocks.ode : Ode (Clocks.model : Model F (Clocks.Data F)) :=
  .trivial _ rfl rfl (fun _ => rfl) (fun _ => rfl)

end Verif
