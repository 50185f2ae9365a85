import Verif.Lemmas.Frozen
import Verif.Lemmas.Solved
import Verif.Props.C57
import Verif.Props.C60
import Verif.Props.C27
import Verif.Props.C66
import Verif.Props.C65

/-!
# C78: what the Model Exchange programs record
-/

set_option linter.unusedSectionVars false

namespace Verif
open Importer.CoSim

/-! ## The solver steps of FMUs without events -/

/-- The states `s` of an FMU without events are described by `H`. -/
theorem Follows.still {D S : Type} {m : Model XRat D} (o : Ode m) (hn : m.eventUpdate = none) {tick : S → S} {H : S → D → Prop}
    (hf : ∀ {s d}, H s d → H (tick s) (o.euler d)) (hc : ∀ {s d d'}, o.calc' d = o.calc' d' → H s d → H s d') :
    Follows o tick (fun s c => H s c.mv.data) (fun _ _ => False) where
  step {s c c' se te} hr h e := by
    rw [hn]
    simp only [Option.isSome_none, Bool.and_false, Bool.false_eq_true, if_false]
    obtain ⟨c2, e2, -, -, -, hd, -⟩ := o.fixedStep_eq hr
    rw [e] at e2
    cases e2
    exact hc hd.symm (hf h)
  event h := h.elim
  update _ h := by rw [hn] at h; cases h
  keep h a := hc a.kept.data.symm h
  keepP h := h.elim

/-- `x` is the value of the variable of Dahlquist, and the parameter `k` is 1. -/
def Dahlquist.Holds (x : Rat) (d : Dahlquist.Data XRat) : Prop := d.x = .fin x ∧ d.k = .fin 1

theorem Dahlquist.follows : Follows (Dahlquist.ode (F := XRat)) (9 / 10 * ·) (fun x c => Dahlquist.Holds x c.mv.data) (fun _ _ => False) :=
  .still _ rfl (fun {s d} h => by
      obtain ⟨h1, h2⟩ := h
      simp only [Dahlquist.Holds, Ode.euler, Dahlquist.ode, Dahlquist.model, eulerUpdate, h1, h2, XRat.lit_eq, XRat.mul_fin, XRat.neg_fin,
        XRat.add_fin, if_neg (show ¬(1 = 0) by decide), List.getD_cons_zero]
      refine ⟨?_, trivial⟩
      congr 1
      ring)
    (fun {s d d'} h k => ⟨(congrArg Dahlquist.Data.x h).symm.trans k.1, (congrArg Dahlquist.Data.k h).symm.trans k.2⟩)

theorem VanDerPol.follows : Follows (VanDerPol.ode (F := XRat)) Oscillator.next (fun s c => VanDerPol.Holds c.mv.data s) (fun _ _ => False) :=
  .still (H := fun s d => VanDerPol.Holds d s) _ rfl (fun h => h.steps 1)
    (fun {s d d'} h k => ⟨(congrArg VanDerPol.Data.x0 h).symm.trans k.1, (congrArg VanDerPol.Data.x1 h).symm.trans k.2.1,
      (congrArg VanDerPol.Data.mu h).symm.trans k.2.2⟩)

theorem few {i : Nat} (h : i < 99999) : ((i + 1 : Nat) : Rat) * tol < 1 := by
  have : ((i + 1 : Nat) : Rat) < 100000 := by exact_mod_cast show i + 1 < 100000 by omega
  unfold tol
  linarith

theorem power (n : Nat) : (9 / 10 * · : Rat → Rat)^[n] 1 = (9 / 10) ^ n := by
  induction n with
  | zero => simp
  | succ n ih => rw [Function.iterate_succ_apply', ih]; ring

/-! ## Reading the recorded variables -/

namespace FMI2
open BouncingBall (indicator_of netd_inv)
variable {F : Type} [Arith F] [HasInf F]

/-- One call that reads, with a given number of variables. -/
macro "recorded2" h:ident : tactic => `(tactic| (
  cases $h:ident with
  | cons e h =>
    cases h
    simp only [FMI2.step, World.run, getReal, begin, beginFunction] at e
    obtain ⟨⟨c1, s1, o1⟩, e1, e⟩ := Outcome.bind_eq_ret.1 e
    cases e
    split at e1
    · simp only [getVariables, refresh, if_neg (show ¬(1 = 0) by decide), if_neg (show ¬(2 = 0) by decide)] at e1
      split at e1
      · cases e1; rfl
      · cases e1; rfl
    · cases e1))

theorem dahlquist_recorded {fuel : Nat} {w w' : World F (Dahlquist.Data F)} {vs : List (Out F)}
    (h : AllOK (FMI2.step Dahlquist.model fuel) w dahlquist2.record w' vs) : vs = [.reals (some [w.inst.mv.data.x])] := by
  recorded2 h

theorem vanDerPol_recorded {fuel : Nat} {w w' : World F (VanDerPol.Data F)} {vs : List (Out F)}
    (h : AllOK (FMI2.step VanDerPol.model fuel) w vanDerPol2.record w' vs) : vs = [.reals (some [w.inst.mv.data.x0, w.inst.mv.data.x1])] := by
  recorded2 h

theorem bouncingBall_recorded {fuel : Nat} {w w' : World F (BouncingBall.Data F)} {vs : List (Out F)}
    (h : AllOK (FMI2.step BouncingBall.model fuel) w bouncingBall2.record w' vs) : vs = [.reals (some [w.inst.mv.data.h, w.inst.mv.data.v])] := by
  recorded2 h

/-- **C78 is violated** by the program for Dahlquist for Model Exchange as it is built, FMI 2.0: whatever the step size and the stop time, the program
ends without error and every row shows 1, the values of the start. -/
theorem C78_violated_dahlquist {h stop : F} {N : Nat} (hN : N < 2 ^ 64)
    (hstop : ∀ k ≤ N, (stop <=. timeAfter h k) = decide (k = N)) (hfin : ∀ k ≤ N, ((HasInf.inf : F) <=. timeAfter h k) = false)
    {fuel n : Nat} (hf : 0 < fuel) (hn : N < n) (resource : Ptr UInt8) :
    Importer.Euler.simulate2 Dahlquist.model .built { dahlquist2 with h := h, stopTime := stop } fuel n resource =
      .ret (.OK, (List.range (N + 1)).map fun k => ⟨timeAfter h k, [.reals (some [Arith.lit 1])]⟩) :=
  frozen (d := ⟨Arith.lit 1, Arith.lit 0, Arith.lit 1⟩) (P := { dahlquist2 with h := h, stopTime := stop }) .dahlquist Dahlquist.ode Dahlquist.reads (Verif.Events.still Whole.dahlquist rfl) .dahlquist rfl (fun op h => by
      simp only [dahlquist2, List.mem_singleton] at h; subst h
      exact .getReal rfl rfl (by simp [Profile.declares, Profile.dahlquist]))
    (fun _ h1 h2 => by
      rw [dahlquist_recorded h2]
      exact congrArg (fun d : Dahlquist.Data F => ([.reals (some [d.x])] : List (Out _))) h1)
    hN hstop hfin hf hn resource fun c l hc => by cases hc; exact ⟨trivial, rfl⟩

/-- **C78 is violated** by the program for VanDerPol for Model Exchange as it is built, FMI 2.0: whatever the step size and the stop time, the program
ends without error and every row shows 2 and 0, the values of the start. -/
theorem C78_violated_vanDerPol {h stop : F} {N : Nat} (hN : N < 2 ^ 64)
    (hstop : ∀ k ≤ N, (stop <=. timeAfter h k) = decide (k = N)) (hfin : ∀ k ≤ N, ((HasInf.inf : F) <=. timeAfter h k) = false)
    {fuel n : Nat} (hf : 0 < fuel) (hn : N < n) (resource : Ptr UInt8) :
    Importer.Euler.simulate2 VanDerPol.model .built { vanDerPol2 with h := h, stopTime := stop } fuel n resource =
      .ret (.OK, (List.range (N + 1)).map fun k => ⟨timeAfter h k, [.reals (some [Arith.lit 2, Arith.lit 0])]⟩) :=
  frozen (d := ⟨Arith.lit 2, Arith.lit 0, Arith.lit 0, Arith.lit 0, Arith.lit 1⟩) (P := { vanDerPol2 with h := h, stopTime := stop }) .vanDerPol VanDerPol.ode VanDerPol.reads (Verif.Events.still Whole.vanDerPol rfl) .vanDerPol rfl (fun op h => by
      simp only [vanDerPol2, List.mem_singleton] at h; subst h
      exact .getReal rfl rfl (by simp [Profile.declares, Profile.vanDerPol]))
    (fun _ h1 h2 => by
      rw [vanDerPol_recorded h2]
      exact congrArg (fun d : VanDerPol.Data F => ([.reals (some [d.x0, d.x1])] : List (Out _))) h1)
    hN hstop hfin hf hn resource fun c l hc => by cases hc; exact ⟨trivial, rfl⟩

/-- **C78 is violated** by the program for BouncingBall for Model Exchange as it is built, FMI 2.0: whatever the step size and the stop time, the program
ends without error and every row shows 1 and 0, the values of the start. -/
theorem C78_violated_bouncingBall {h stop : XRat} {N : Nat} (hN : N < 2 ^ 64)
    (hstop : ∀ k ≤ N, (stop <=. timeAfter h k) = decide (k = N)) (hfin : ∀ k ≤ N, ((HasInf.inf : XRat) <=. timeAfter h k) = false)
    {fuel n : Nat} (hf : 0 < fuel) (hn : N < n) (resource : Ptr UInt8) :
    Importer.Euler.simulate2 BouncingBall.model .built { bouncingBall2 with h := h, stopTime := stop } fuel n resource =
      .ret (.OK, (List.range (N + 1)).map fun k => ⟨timeAfter h k, [.reals (some [.fin 1, .fin 0])]⟩) :=
  frozen (d := ⟨.fin 1, .fin 0, .fin (-(981 / 100)), .fin (7 / 10)⟩) (P := { bouncingBall2 with h := h, stopTime := stop }) .bouncingBall BouncingBall.ode BouncingBall.reads BouncingBall.events .bouncingBall rfl (fun op h => by
      simp only [bouncingBall2, List.mem_singleton] at h; subst h
      exact .getReal rfl rfl (by simp [Profile.declares, Profile.bouncingBall]))
    (fun _ h1 h2 => by
      rw [bouncingBall_recorded h2]
      exact congrArg (fun d : BouncingBall.Data XRat => ([.reals (some [d.h, d.v])] : List (Out _))) h1)
    hN hstop hfin hf hn resource fun c l hc => by cases hc; exact ⟨trivial, rfl⟩

theorem bouncingBall_start {fuel : Nat} {resource : Ptr UInt8} {stop : XRat} {c l w vs} (hc : instantiate BouncingBall.model (some "instance1") .coSimulation (some (BouncingBall.model : Model XRat _).token) resource (some true) false true = (some c, l))
    (ha : AllOK (step BouncingBall.model fuel) (.fresh c) [.setupExperiment (Arith.lit 0) true stop, .enterInitializationMode, .exitInitializationMode] w vs) : BouncingBall.On ⟨1, 0, -981 / 100, 7 / 10⟩ w.inst := by
  have hm : RefFMU2 (BouncingBall.model : Model XRat _) := .bouncingBall
  have hok := hm.eff.okOrError
  obtain ⟨q, hq, hqs⟩ := indicator_of ⟨1, 0, -981 / 100, 7 / 10⟩
  have h1 : w.inst.mv.data = .of ⟨1, 0, -981 / 100, 7 / 10⟩ := by
    have h1 := AllOK.kept (o := BouncingBall.ode) hm.eff BouncingBall.reads ha (by simp [notPassive, Op.fn])
    cases hc
    exact h1.trans (by with_unfolding_all rfl)
  cases ha with
  | cons e1 ha =>
    cases ha with
    | cons e2 ha =>
      cases ha with
      | cons e3 ha =>
        cases ha
        have hw : Reachable BouncingBall.model .coSimulation _ := (Reachable.call hok (Reachable.call hok ⟨_, _, _, _, _, _, c, l, _, 0, [], [], hc, ⟨rfl, fun _ => rfl, fun _ _ e => by cases e⟩, rfl⟩ e1) e2)
        refine ⟨h1, (Reachable.mv hok netd_inv rfl (Reachable.call hok hw e3)).inst, .inl ⟨q, ?_, hqs⟩⟩
        rw [exit_prez BouncingBall.ode hok (hw.ready BouncingBall.ode hm).1 (by decide) e3, h1]
        exact congrArg (fun x => [x]) hq

/-- **C78** for Co-Simulation, Dahlquist, FMI 2.0: if the communication step size is `j` solver steps and the simulation has less than 99999 solver
steps, then the program examples/simulate_fmi2_cs.c ends without error, and the row number `k` shows `(9/10)^(k j)`, the result of `k j` explicit Euler steps. -/
theorem C78_partial_dahlquist {j N : Nat} (hj : 0 < j) (hN : N * j < 99999) {fuel n : Nat} (hf : 2 * (N * j) + 10 < fuel)
    (hb : fuel * (N + 1) < 2 ^ 64) (hn : N < n) (resource : Ptr UInt8) :
    simulate2 Dahlquist.model { dahlquist2 with h := XRat.fin (j * (1 / 10)), stopTime := XRat.fin (N * (j * (1 / 10))) } fuel n resource =
      .ret (.OK, (List.range (N + 1)).map fun (k : Nat) => ⟨XRat.fin (k * (j * (1 / 10))), [.reals (some [XRat.fin ((9 / 10) ^ (k * j))])]⟩) := by
  have h := solved_rows (m := Dahlquist.model) .dahlquist .dahlquist Dahlquist.follows Dahlquist.reads
    (P := { dahlquist2 with h := XRat.fin (j * (1 / 10)), stopTime := XRat.fin (N * (j * (1 / 10))) })
    ⟨fits_dahlquist.start, fits_dahlquist.inputs, fits_dahlquist.record⟩ (fun _ => rfl) rfl
    (fun op h => by simp only [dahlquist2, List.mem_singleton] at h; subst h; exact ⟨by simp [Interferes, Op.fn], by simp [Op.fn]⟩)
    (hh := 1 / 10) rfl (by decide +kernel) hj rfl (N := N) rfl (few hN)
    (K := 2 * (N * j) + 10) (fuel := fuel) (n := n) (by push_cast; exact le_of_eq (by ring)) hf (lt_trans (Nat.add_lt_add_left hf _) hb) hn resource
    (fun _ _ _ => trivial) (s := (1 : Rat)) (v := fun s => [.reals (some [.fin s])]) ?_ ?_
  · rw [h]
    simp only [power]
  · intro c l w vs hc ha
    have h1 := AllOK.kept (o := Dahlquist.ode) RefFMU2.dahlquist.eff Dahlquist.reads ha (by simp [notPassive, Op.fn])
    cases hc
    exact ⟨congrArg Dahlquist.Data.x h1, congrArg Dahlquist.Data.k h1⟩
  · intro w w' vs s _ h1 h2
    rw [dahlquist_recorded h2]
    rw [h1.1]

/-- **C78** for Co-Simulation, VanDerPol, FMI 2.0: if the communication step size is `j` solver steps and the simulation has less than 99999 solver
steps, then the program examples/simulate_fmi2_cs.c ends without error, and the row number `k` shows the oscillator after `k j` explicit Euler steps. -/
theorem C78_partial_vanDerPol {j N : Nat} (hj : 0 < j) (hN : N * j < 99999) {fuel n : Nat} (hf : 2 * (N * j) + 100 < fuel)
    (hb : fuel * (N + 1) < 2 ^ 64) (hn : N < n) (resource : Ptr UInt8) :
    simulate2 VanDerPol.model { vanDerPol2 with h := XRat.fin (j * (1 / 100)), stopTime := XRat.fin (N * (j * (1 / 100))) } fuel n resource =
      .ret (.OK, (List.range (N + 1)).map fun (k : Nat) => ⟨XRat.fin (k * (j * (1 / 100))), [.reals (some [XRat.fin (Oscillator.next^[k * j] ⟨2, 0, 1⟩).x0, .fin (Oscillator.next^[k * j] ⟨2, 0, 1⟩).x1])]⟩) := by
  have h := solved_rows (m := VanDerPol.model) .vanDerPol .vanDerPol VanDerPol.follows VanDerPol.reads
    (P := { vanDerPol2 with h := XRat.fin (j * (1 / 100)), stopTime := XRat.fin (N * (j * (1 / 100))) })
    ⟨fits_vanDerPol.start, fits_vanDerPol.inputs, fits_vanDerPol.record⟩ (fun _ => rfl) rfl
    (fun op h => by simp only [vanDerPol2, List.mem_singleton] at h; subst h; exact ⟨by simp [Interferes, Op.fn], by simp [Op.fn]⟩)
    (hh := 1 / 100) rfl (by decide +kernel) hj rfl (N := N) rfl (few hN)
    (K := 2 * (N * j) + 100) (fuel := fuel) (n := n) (by push_cast; exact le_of_eq (by ring)) hf (lt_trans (Nat.add_lt_add_left hf _) hb) hn resource
    (fun _ _ _ => trivial) (s := (⟨2, 0, 1⟩ : Oscillator)) (v := fun s => [.reals (some [.fin s.x0, .fin s.x1])]) ?_ ?_
  · rw [h]
  · intro c l w vs hc ha
    have h1 := AllOK.kept (o := VanDerPol.ode) RefFMU2.vanDerPol.eff VanDerPol.reads ha (by simp [notPassive, Op.fn])
    cases hc
    exact ⟨congrArg VanDerPol.Data.x0 h1, congrArg VanDerPol.Data.x1 h1, congrArg VanDerPol.Data.mu h1⟩
  · intro w w' vs s _ h1 h2
    rw [vanDerPol_recorded h2]
    rw [h1.1, h1.2.1]

/-- **C78** for Co-Simulation, BouncingBall, FMI 2.0: if the communication step size is `j` solver steps and the simulation has less than 99999 solver
steps, then the program examples/simulate_fmi2_cs.c ends without error, and the row number `k` shows the ball after `k j` explicit Euler steps with bounces. -/
theorem C78_partial_bouncingBall {j N : Nat} (hj : 0 < j) (hN : N * j < 99999) {fuel n : Nat} (hf : 2 * (N * j) + 1000 < fuel)
    (hb : fuel * (N + 1) < 2 ^ 64) (hn : N < n) (resource : Ptr UInt8) :
    simulate2 BouncingBall.model { bouncingBall2 with h := XRat.fin (j * (1 / 1000)), stopTime := XRat.fin (N * (j * (1 / 1000))) } fuel n resource =
      .ret (.OK, (List.range (N + 1)).map fun (k : Nat) => ⟨XRat.fin (k * (j * (1 / 1000))), [.reals (some [XRat.fin (Ball.next^[k * j] ⟨1, 0, -981 / 100, 7 / 10⟩).h, .fin (Ball.next^[k * j] ⟨1, 0, -981 / 100, 7 / 10⟩).v])]⟩) := by
  have h := solved_rows (m := BouncingBall.model) .bouncingBall .bouncingBall BouncingBall.follows BouncingBall.reads
    (P := { bouncingBall2 with h := XRat.fin (j * (1 / 1000)), stopTime := XRat.fin (N * (j * (1 / 1000))) })
    ⟨fits_bouncingBall.start, fits_bouncingBall.inputs, fits_bouncingBall.record⟩ (fun _ => rfl) rfl
    (fun op h => by simp only [bouncingBall2, List.mem_singleton] at h; subst h; exact ⟨by simp [Interferes, Op.fn], by simp [Op.fn]⟩)
    (hh := 1 / 1000) rfl (by decide +kernel) hj rfl (N := N) rfl (few hN)
    (K := 2 * (N * j) + 1000) (fuel := fuel) (n := n) (by push_cast; exact le_of_eq (by ring)) hf (lt_trans (Nat.add_lt_add_left hf _) hb) hn resource
    (fun _ _ _ => trivial) (s := (⟨1, 0, -981 / 100, 7 / 10⟩ : Ball)) (v := fun s => [.reals (some [.fin s.h, .fin s.v])]) ?_ ?_
  · rw [h]
  · intro c l w vs hc ha
    exact bouncingBall_start hc ha
  · intro w w' vs s _ h1 h2
    rw [bouncingBall_recorded h2]
    rw [h1.data]; rfl

/-- Both programs as they are in the repository disagree: at 0.1 the program for Co-Simulation shows 0.9, that for Model Exchange 1. -/
theorem C78_violated (resource : Ptr UInt8) : ∃ cs me, simulate2 Dahlquist.model dahlquist2 211 101 resource = .ret (.OK, cs) ∧
    Importer.Euler.simulate2 Dahlquist.model .built dahlquist2 1 101 resource = .ret (.OK, me) ∧
    cs[1]? = some ⟨XRat.fin (1/10), [.reals (some [XRat.fin (9/10)])]⟩ ∧ me[1]? = some ⟨XRat.fin (1/10), [.reals (some [XRat.fin 1])]⟩ := by
  refine ⟨_, _, Eq.trans (congrArg (fun P => simulate2 _ P _ _ _) ?_) (C78_partial_dahlquist (j := 1) (N := 100) (by decide) (by decide) (by decide) (by decide) (by decide) resource),
    C78_violated_dahlquist (h := XRat.fin (1/10)) (stop := XRat.fin 10) (N := 100) (by decide) (stop_multiple (by decide +kernel) (by decide +kernel))
      (fun k _ => finite_times k) (by decide) (by decide) resource, ?_, ?_⟩
  · have h1 : XRat.fin (1/10) = XRat.fin (((1 : Nat) : Rat) * (1/10)) := by decide +kernel
    have h2 : XRat.fin 10 = XRat.fin (((100 : Nat) : Rat) * (((1 : Nat) : Rat) * (1/10))) := by decide +kernel
    rw [← h1, ← h2]
    rfl
  · simp
  · simp only [List.getElem?_map]
    decide +kernel

example (resource : Ptr UInt8) := C78_violated_vanDerPol (h := XRat.fin (1/100)) (stop := XRat.fin 20) (N := 2000) (fuel := 1) (n := 2001) (by decide)
  (stop_multiple (by decide +kernel) (by decide +kernel)) (fun k _ => finite_times k) (by decide) (by decide) resource

example (resource : Ptr UInt8) := C78_violated_bouncingBall (h := XRat.fin (1/1000)) (stop := XRat.fin 3) (N := 3000) (fuel := 1) (n := 3001) (by decide)
  (stop_multiple (by decide +kernel) (by decide +kernel)) (fun k _ => finite_times k) (by decide) (by decide) resource

/-- The communication step size is a tenth of a second for a solver step of a hundredth: ten solver steps for every row. -/
example (resource : Ptr UInt8) := C78_partial_vanDerPol (j := 10) (N := 200) (fuel := 4101) (n := 201) (by decide) (by decide) (by decide) (by decide) (by decide) resource

/-- Two steps of VanDerPol, computed. -/
example : (Oscillator.next^[2] ⟨2, 0, 1⟩).x0 = 9999 / 5000 ∧ (Oscillator.next^[2] ⟨2, 0, 1⟩).x1 = -197 / 5000 := by
  norm_num [Oscillator.next]

example (resource : Ptr UInt8) := C78_partial_bouncingBall (j := 1) (N := 3000) (fuel := 7001) (n := 3001) (by decide) (by decide) (by decide) (by decide) (by decide) resource

example (resource : Ptr UInt8) := C78_partial_bouncingBall (j := 25) (N := 120) (fuel := 7001) (n := 121) (by decide) (by decide) (by decide) (by decide) (by decide) resource

end FMI2

namespace FMI3
open BouncingBall (indicator_of netd_inv)
variable {F : Type} [Arith F] [HasInf F]

/-- One call that reads, with a given number of variables. -/
macro "recorded3" h:ident : tactic => `(tactic| (
  cases $h:ident with
  | cons e h =>
    cases h
    simp only [FMI3.step, World.run, getVars, begin, beginFunction] at e
    obtain ⟨⟨c1, s1, o1⟩, e1, e⟩ := Outcome.bind_eq_ret.1 e
    cases e
    split at e1
    · simp only [refresh, if_neg (show ¬(1 = 0) by decide), if_neg (show ¬(2 = 0) by decide)] at e1
      rw [if_pos (by decide)] at e1
      simp only [assertNonNull, Option.isNone_some, Bool.false_eq_true, if_false] at e1
      split at e1
      · cases e1; rfl
      · cases e1; rfl
    · cases e1))

theorem dahlquist_recorded {fuel : Nat} {w w' : World F (Dahlquist.Data F)} {vs : List (Out F)}
    (h : AllOK (FMI3.step Dahlquist.model fuel) w dahlquist3.record w' vs) : vs = [.values .float64 (some [w.inst.mv.data.x])] := by
  recorded3 h

theorem vanDerPol_recorded {fuel : Nat} {w w' : World F (VanDerPol.Data F)} {vs : List (Out F)}
    (h : AllOK (FMI3.step VanDerPol.model fuel) w vanDerPol3.record w' vs) : vs = [.values .float64 (some [w.inst.mv.data.x0, w.inst.mv.data.x1])] := by
  recorded3 h

theorem bouncingBall_recorded {fuel : Nat} {w w' : World F (BouncingBall.Data F)} {vs : List (Out F)}
    (h : AllOK (FMI3.step BouncingBall.model fuel) w bouncingBall3.record w' vs) : vs = [.values .float64 (some [w.inst.mv.data.h, w.inst.mv.data.v])] := by
  recorded3 h

/-- **C78 is violated** by the program for Dahlquist for Model Exchange as it is built, FMI 3.0: whatever the step size and the stop time, the program
ends without error and every row shows 1, the values of the start. -/
theorem C78_violated_dahlquist {h stop : F} {N : Nat} (hN : N < 2 ^ 64)
    (hstop : ∀ k ≤ N, (stop <=. timeAfter h k) = decide (k = N)) (hfin : ∀ k ≤ N, ((HasInf.inf : F) <=. timeAfter h k) = false)
    {fuel n : Nat} (hf : 0 < fuel) (hn : N < n) (resource : Ptr UInt8) :
    Importer.Euler.simulate3 Dahlquist.model .built { dahlquist3 with h := h, stopTime := stop } fuel n resource =
      .ret (.OK, (List.range (N + 1)).map fun k => ⟨timeAfter h k, [.values .float64 (some [Arith.lit 1])]⟩) :=
  frozen (d := ⟨Arith.lit 1, Arith.lit 0, Arith.lit 1⟩) (P := { dahlquist3 with h := h, stopTime := stop }) .dahlquist Dahlquist.ode Dahlquist.reads (Verif.Events.still Whole.dahlquist rfl) rfl .dahlquist rfl (fun op h => by
      simp only [dahlquist3, List.mem_singleton] at h; subst h
      exact .get rfl rfl (by simp [Profile.declares, Profile.dahlquist]))
    (fun _ h1 h2 => by
      rw [dahlquist_recorded h2]
      exact congrArg (fun d : Dahlquist.Data F => ([.values .float64 (some [d.x])] : List (Out _))) h1)
    hN hstop hfin hf hn resource fun c l hc => by cases hc; exact ⟨trivial, rfl⟩

/-- **C78 is violated** by the program for VanDerPol for Model Exchange as it is built, FMI 3.0: whatever the step size and the stop time, the program
ends without error and every row shows 2 and 0, the values of the start. -/
theorem C78_violated_vanDerPol {h stop : F} {N : Nat} (hN : N < 2 ^ 64)
    (hstop : ∀ k ≤ N, (stop <=. timeAfter h k) = decide (k = N)) (hfin : ∀ k ≤ N, ((HasInf.inf : F) <=. timeAfter h k) = false)
    {fuel n : Nat} (hf : 0 < fuel) (hn : N < n) (resource : Ptr UInt8) :
    Importer.Euler.simulate3 VanDerPol.model .built { vanDerPol3 with h := h, stopTime := stop } fuel n resource =
      .ret (.OK, (List.range (N + 1)).map fun k => ⟨timeAfter h k, [.values .float64 (some [Arith.lit 2, Arith.lit 0])]⟩) :=
  frozen (d := ⟨Arith.lit 2, Arith.lit 0, Arith.lit 0, Arith.lit 0, Arith.lit 1⟩) (P := { vanDerPol3 with h := h, stopTime := stop }) .vanDerPol VanDerPol.ode VanDerPol.reads (Verif.Events.still Whole.vanDerPol rfl) rfl .vanDerPol rfl (fun op h => by
      simp only [vanDerPol3, List.mem_singleton] at h; subst h
      exact .get rfl rfl (by simp [Profile.declares, Profile.vanDerPol]))
    (fun _ h1 h2 => by
      rw [vanDerPol_recorded h2]
      exact congrArg (fun d : VanDerPol.Data F => ([.values .float64 (some [d.x0, d.x1])] : List (Out _))) h1)
    hN hstop hfin hf hn resource fun c l hc => by cases hc; exact ⟨trivial, rfl⟩

/-- **C78 is violated** by the program for BouncingBall for Model Exchange as it is built, FMI 3.0: whatever the step size and the stop time, the program
ends without error and every row shows 1 and 0, the values of the start. -/
theorem C78_violated_bouncingBall {h stop : XRat} {N : Nat} (hN : N < 2 ^ 64)
    (hstop : ∀ k ≤ N, (stop <=. timeAfter h k) = decide (k = N)) (hfin : ∀ k ≤ N, ((HasInf.inf : XRat) <=. timeAfter h k) = false)
    {fuel n : Nat} (hf : 0 < fuel) (hn : N < n) (resource : Ptr UInt8) :
    Importer.Euler.simulate3 BouncingBall.model .built { bouncingBall3 with h := h, stopTime := stop } fuel n resource =
      .ret (.OK, (List.range (N + 1)).map fun k => ⟨timeAfter h k, [.values .float64 (some [.fin 1, .fin 0])]⟩) :=
  frozen (d := ⟨.fin 1, .fin 0, .fin (-(981 / 100)), .fin (7 / 10)⟩) (P := { bouncingBall3 with h := h, stopTime := stop }) .bouncingBall BouncingBall.ode BouncingBall.reads BouncingBall.events rfl .bouncingBall rfl (fun op h => by
      simp only [bouncingBall3, List.mem_singleton] at h; subst h
      exact .get rfl rfl (by simp [Profile.declares, Profile.bouncingBall]))
    (fun _ h1 h2 => by
      rw [bouncingBall_recorded h2]
      exact congrArg (fun d : BouncingBall.Data XRat => ([.values .float64 (some [d.h, d.v])] : List (Out _))) h1)
    hN hstop hfin hf hn resource fun c l hc => by cases hc; exact ⟨trivial, rfl⟩

theorem bouncingBall_start {fuel : Nat} {resource : Ptr UInt8} {stop : XRat} {c l w vs} (hc : instantiateCoSimulation BouncingBall.model (some "instance1") (some (BouncingBall.model : Model XRat _).token) resource false false false true false true = (some c, l))
    (ha : AllOK (step BouncingBall.model fuel) (.fresh c) [.enterInitializationMode (Arith.lit 0) true stop, .exitInitializationMode] w vs) : BouncingBall.On ⟨1, 0, -981 / 100, 7 / 10⟩ w.inst := by
  have hm : RefFMU3 (BouncingBall.model : Model XRat _) := .bouncingBall
  have hok := hm.eff.okOrError
  obtain ⟨q, hq, hqs⟩ := indicator_of ⟨1, 0, -981 / 100, 7 / 10⟩
  have h1 : w.inst.mv.data = .of ⟨1, 0, -981 / 100, 7 / 10⟩ := by
    have h1 := AllOK.kept (o := BouncingBall.ode) hm.eff BouncingBall.reads ha (by simp [notPassive, Op.fn])
    cases hc
    exact h1.trans (by with_unfolding_all rfl)
  cases ha with
  | cons e2 ha =>
    cases ha with
    | cons e3 ha =>
      cases ha
      have hw : ReachableProper BouncingBall.model .coSimulation _ := ReachableProper.call (.new (.cs hc) ⟨rfl, fun _ => rfl, fun _ _ e => by cases e⟩) e2 (by intro h; cases h)
      refine ⟨h1, (Reachable.mv hok netd_inv rfl ((ReachableProper.call hw e3 (by intro h; cases h)).reachable hok)).inst, .inl ⟨q, ?_, hqs⟩⟩
      rw [exit_prez BouncingBall.ode hok (hw.ready BouncingBall.ode hm).1 (by decide) e3, h1]
      exact congrArg (fun x => [x]) hq

/-- **C78** for Co-Simulation, Dahlquist, FMI 3.0: if the communication step size is `j` solver steps and the simulation has less than 99999 solver
steps, then the program examples/simulate_fmi3_cs.c ends without error, and the row number `k` shows `(9/10)^(k j)`, the result of `k j` explicit Euler steps. -/
theorem C78_partial_dahlquist {j N : Nat} (hj : 0 < j) (hN : N * j < 99999) {fuel n : Nat} (hf : 2 * (N * j) + 10 < fuel)
    (hb : fuel * (N + 1) < 2 ^ 64) (hn : N < n) (resource : Ptr UInt8) :
    simulate3 Dahlquist.model { dahlquist3 with h := XRat.fin (j * (1 / 10)), stopTime := XRat.fin (N * (j * (1 / 10))) } fuel n resource =
      .ret (.OK, (List.range (N + 1)).map fun (k : Nat) => ⟨XRat.fin (k * (j * (1 / 10))), [.values .float64 (some [XRat.fin ((9 / 10) ^ (k * j))])]⟩) := by
  have h := solved_rows (m := Dahlquist.model) .dahlquist .dahlquist Dahlquist.follows Dahlquist.reads
    (P := { dahlquist3 with h := XRat.fin (j * (1 / 10)), stopTime := XRat.fin (N * (j * (1 / 10))) })
    ⟨fits_dahlquist.start, fits_dahlquist.inputs, fits_dahlquist.record⟩ (fun _ => rfl) rfl
    (fun op h => by simp only [dahlquist3, List.mem_singleton] at h; subst h; exact ⟨_, rfl⟩)
    (hh := 1 / 10) rfl (by decide +kernel) hj rfl (N := N) rfl (few hN)
    (K := 2 * (N * j) + 10) (fuel := fuel) (n := n) (by push_cast; exact le_of_eq (by ring)) hf (lt_trans (Nat.add_lt_add_left hf _) hb) hn resource
    (fun _ _ _ => trivial) (s := (1 : Rat)) (v := fun s => [.values .float64 (some [.fin s])]) ?_ ?_
  · rw [h]
    simp only [power]
  · intro c l w vs hc ha
    have h1 := AllOK.kept (o := Dahlquist.ode) RefFMU3.dahlquist.eff Dahlquist.reads ha (by simp [notPassive, Op.fn])
    cases hc
    exact ⟨congrArg Dahlquist.Data.x h1, congrArg Dahlquist.Data.k h1⟩
  · intro w w' vs s _ h1 h2
    rw [dahlquist_recorded h2]
    rw [h1.1]

/-- **C78** for Co-Simulation, VanDerPol, FMI 3.0: if the communication step size is `j` solver steps and the simulation has less than 99999 solver
steps, then the program examples/simulate_fmi3_cs.c ends without error, and the row number `k` shows the oscillator after `k j` explicit Euler steps. -/
theorem C78_partial_vanDerPol {j N : Nat} (hj : 0 < j) (hN : N * j < 99999) {fuel n : Nat} (hf : 2 * (N * j) + 100 < fuel)
    (hb : fuel * (N + 1) < 2 ^ 64) (hn : N < n) (resource : Ptr UInt8) :
    simulate3 VanDerPol.model { vanDerPol3 with h := XRat.fin (j * (1 / 100)), stopTime := XRat.fin (N * (j * (1 / 100))) } fuel n resource =
      .ret (.OK, (List.range (N + 1)).map fun (k : Nat) => ⟨XRat.fin (k * (j * (1 / 100))), [.values .float64 (some [XRat.fin (Oscillator.next^[k * j] ⟨2, 0, 1⟩).x0, .fin (Oscillator.next^[k * j] ⟨2, 0, 1⟩).x1])]⟩) := by
  have h := solved_rows (m := VanDerPol.model) .vanDerPol .vanDerPol VanDerPol.follows VanDerPol.reads
    (P := { vanDerPol3 with h := XRat.fin (j * (1 / 100)), stopTime := XRat.fin (N * (j * (1 / 100))) })
    ⟨fits_vanDerPol.start, fits_vanDerPol.inputs, fits_vanDerPol.record⟩ (fun _ => rfl) rfl
    (fun op h => by simp only [vanDerPol3, List.mem_singleton] at h; subst h; exact ⟨_, rfl⟩)
    (hh := 1 / 100) rfl (by decide +kernel) hj rfl (N := N) rfl (few hN)
    (K := 2 * (N * j) + 100) (fuel := fuel) (n := n) (by push_cast; exact le_of_eq (by ring)) hf (lt_trans (Nat.add_lt_add_left hf _) hb) hn resource
    (fun _ _ _ => trivial) (s := (⟨2, 0, 1⟩ : Oscillator)) (v := fun s => [.values .float64 (some [.fin s.x0, .fin s.x1])]) ?_ ?_
  · rw [h]
  · intro c l w vs hc ha
    have h1 := AllOK.kept (o := VanDerPol.ode) RefFMU3.vanDerPol.eff VanDerPol.reads ha (by simp [notPassive, Op.fn])
    cases hc
    exact ⟨congrArg VanDerPol.Data.x0 h1, congrArg VanDerPol.Data.x1 h1, congrArg VanDerPol.Data.mu h1⟩
  · intro w w' vs s _ h1 h2
    rw [vanDerPol_recorded h2]
    rw [h1.1, h1.2.1]

/-- **C78** for Co-Simulation, BouncingBall, FMI 3.0: if the communication step size is `j` solver steps and the simulation has less than 99999 solver
steps, then the program examples/simulate_fmi3_cs.c ends without error, and the row number `k` shows the ball after `k j` explicit Euler steps with bounces. -/
theorem C78_partial_bouncingBall {j N : Nat} (hj : 0 < j) (hN : N * j < 99999) {fuel n : Nat} (hf : 2 * (N * j) + 1000 < fuel)
    (hb : fuel * (N + 1) < 2 ^ 64) (hn : N < n) (resource : Ptr UInt8) :
    simulate3 BouncingBall.model { bouncingBall3 with h := XRat.fin (j * (1 / 1000)), stopTime := XRat.fin (N * (j * (1 / 1000))) } fuel n resource =
      .ret (.OK, (List.range (N + 1)).map fun (k : Nat) => ⟨XRat.fin (k * (j * (1 / 1000))), [.values .float64 (some [XRat.fin (Ball.next^[k * j] ⟨1, 0, -981 / 100, 7 / 10⟩).h, .fin (Ball.next^[k * j] ⟨1, 0, -981 / 100, 7 / 10⟩).v])]⟩) := by
  have h := solved_rows (m := BouncingBall.model) .bouncingBall .bouncingBall BouncingBall.follows BouncingBall.reads
    (P := { bouncingBall3 with h := XRat.fin (j * (1 / 1000)), stopTime := XRat.fin (N * (j * (1 / 1000))) })
    ⟨fits_bouncingBall.start, fits_bouncingBall.inputs, fits_bouncingBall.record⟩ (fun _ => rfl) rfl
    (fun op h => by simp only [bouncingBall3, List.mem_singleton] at h; subst h; exact ⟨_, rfl⟩)
    (hh := 1 / 1000) rfl (by decide +kernel) hj rfl (N := N) rfl (few hN)
    (K := 2 * (N * j) + 1000) (fuel := fuel) (n := n) (by push_cast; exact le_of_eq (by ring)) hf (lt_trans (Nat.add_lt_add_left hf _) hb) hn resource
    (fun _ _ _ => trivial) (s := (⟨1, 0, -981 / 100, 7 / 10⟩ : Ball)) (v := fun s => [.values .float64 (some [.fin s.h, .fin s.v])]) ?_ ?_
  · rw [h]
  · intro c l w vs hc ha
    exact bouncingBall_start hc ha
  · intro w w' vs s _ h1 h2
    rw [bouncingBall_recorded h2]
    rw [h1.data]; rfl

/-- Both programs as they are in the repository disagree: at 0.1 the program for Co-Simulation shows 0.9, that for Model Exchange 1. -/
theorem C78_violated (resource : Ptr UInt8) : ∃ cs me, simulate3 Dahlquist.model dahlquist3 211 101 resource = .ret (.OK, cs) ∧
    Importer.Euler.simulate3 Dahlquist.model .built dahlquist3 1 101 resource = .ret (.OK, me) ∧
    cs[1]? = some ⟨XRat.fin (1/10), [.values .float64 (some [XRat.fin (9/10)])]⟩ ∧ me[1]? = some ⟨XRat.fin (1/10), [.values .float64 (some [XRat.fin 1])]⟩ := by
  refine ⟨_, _, Eq.trans (congrArg (fun P => simulate3 _ P _ _ _) ?_) (C78_partial_dahlquist (j := 1) (N := 100) (by decide) (by decide) (by decide) (by decide) (by decide) resource),
    C78_violated_dahlquist (h := XRat.fin (1/10)) (stop := XRat.fin 10) (N := 100) (by decide) (stop_multiple (by decide +kernel) (by decide +kernel))
      (fun k _ => finite_times k) (by decide) (by decide) resource, ?_, ?_⟩
  · have h1 : XRat.fin (1/10) = XRat.fin (((1 : Nat) : Rat) * (1/10)) := by decide +kernel
    have h2 : XRat.fin 10 = XRat.fin (((100 : Nat) : Rat) * (((1 : Nat) : Rat) * (1/10))) := by decide +kernel
    rw [← h1, ← h2]
    rfl
  · simp
  · simp only [List.getElem?_map]
    decide +kernel

example (resource : Ptr UInt8) := C78_violated_vanDerPol (h := XRat.fin (1/100)) (stop := XRat.fin 20) (N := 2000) (fuel := 1) (n := 2001) (by decide)
  (stop_multiple (by decide +kernel) (by decide +kernel)) (fun k _ => finite_times k) (by decide) (by decide) resource

example (resource : Ptr UInt8) := C78_violated_bouncingBall (h := XRat.fin (1/1000)) (stop := XRat.fin 3) (N := 3000) (fuel := 1) (n := 3001) (by decide)
  (stop_multiple (by decide +kernel) (by decide +kernel)) (fun k _ => finite_times k) (by decide) (by decide) resource

/-- The communication step size is a tenth of a second for a solver step of a hundredth: ten solver steps for every row. -/
example (resource : Ptr UInt8) := C78_partial_vanDerPol (j := 10) (N := 200) (fuel := 4101) (n := 201) (by decide) (by decide) (by decide) (by decide) (by decide) resource

/-- Two steps of VanDerPol, computed. -/
example : (Oscillator.next^[2] ⟨2, 0, 1⟩).x0 = 9999 / 5000 ∧ (Oscillator.next^[2] ⟨2, 0, 1⟩).x1 = -197 / 5000 := by
  norm_num [Oscillator.next]

example (resource : Ptr UInt8) := C78_partial_bouncingBall (j := 1) (N := 3000) (fuel := 7001) (n := 3001) (by decide) (by decide) (by decide) (by decide) (by decide) resource

example (resource : Ptr UInt8) := C78_partial_bouncingBall (j := 25) (N := 120) (fuel := 7001) (n := 121) (by decide) (by decide) (by decide) (by decide) (by decide) resource

end FMI3
end Verif
