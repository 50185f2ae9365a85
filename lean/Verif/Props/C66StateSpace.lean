import Verif.Lemmas.DriverStateSpace
import Verif.Props.C65StateSpace

/-!
# C66 and C78 for StateSpace: the Model Exchange program
-/

namespace Verif
open Importer.CoSim

namespace FMI3
section
variable {F : Type} [Arith F] [HasInf F]

/-- Creation and initialization. -/
theorem stateSpace_startedME (h stop : F) (resource : Ptr UInt8) :
    ∃ c l w ctx mv, instantiateModelExchange (StateSpace.model : Model F (StateSpace.Data F)) (some "instance1")
        (some (StateSpace.model : Model F (StateSpace.Data F)).token) resource false true true = (some c, l) ∧ c.ctx.typ = .modelExchange ∧
      AllOK (apiStateSpace (StateSpace.model : Model F (StateSpace.Data F)) 0 h).call (.fresh c)
        [.call (.enterInitializationMode (Arith.lit 0) true stop), .call .exitInitializationMode] w [[], []] ∧
      StateSpace.Still c (StateSpace.setStartValues ctx mv).data .eventMode w := by
  have hok := (RefFMU3.stateSpace (F := F)).eff.okOrError
  obtain ⟨c, l, hc⟩ : ∃ c l, instantiateModelExchange (StateSpace.model : Model F (StateSpace.Data F)) (some "instance1")
    (some (StateSpace.model : Model F (StateSpace.Data F)).token) resource false true true = (some c, l) := ⟨_, _, rfl⟩
  obtain ⟨w1, w2, e1, e2, hs, ht⟩ : ∃ w1 w2, FMI3.step StateSpace.model 0 (.fresh c) (.enterInitializationMode (Arith.lit 0) true stop) =
      .ret (w1, .OK, .unit) ∧ FMI3.step StateSpace.model 0 w1 .exitInitializationMode = .ret (w2, .OK, .unit) ∧ w2.inst.ctx.state = .eventMode ∧
      c.ctx.typ = .modelExchange := by
    cases hc
    refine ⟨?x, ?y, ?a, ?b, ?d, rfl⟩
    case a => with_unfolding_all rfl
    case b => with_unfolding_all rfl
    case d => with_unfolding_all rfl
  have h0 : Reachable (StateSpace.model : Model F (StateSpace.Data F)) .modelExchange (.fresh c) :=
    ⟨c, _, 0, [], [], .me hc, ⟨rfl, fun _ => rfl, fun _ _ e => by cases e⟩, rfl⟩
  have hu : Untouched (StateSpace.model : Model F (StateSpace.Data F)) w2 := ⟨_, c, .fresh c, .me hc, ⟨rfl, fun _ => rfl, fun _ _ e => by cases e⟩,
    .call (.call .none (by simp [Leaves, Op.fn]) e1) (by simp [Leaves, Op.fn]) e2⟩
  obtain ⟨ctx, mv, -, hd⟩ := hu.started RefFMU3.stateSpace.eff StateSpace.reads_upTo
  have hk : WInv c.Kept (.fresh c) := WInv.fresh ⟨⟨rfl, rfl, rfl, rfl, rfl⟩, rfl, rfl⟩
  exact ⟨c, l, w2, ctx, mv, hc, ht,
    .cons (w₁ := w1) (by simp only [apiStateSpace, e1, Outcome.ret_bind]) (.cons (by simp only [apiStateSpace, e2, Outcome.ret_bind]) .nil),
    ⟨(h0.call hok e1).call hok e2, step_inv hok (kept _ c) (step_inv hok (kept _ c) hk _ _ e1) _ _ e2, hs⟩, hd⟩

/-- The program as it is built: the rows, all with the outputs of an instance that was just initialized. -/
theorem stateSpace_still {h stop : F} {N : Nat} (hN : N < 2 ^ 64) (hstop : ∀ k ≤ N, (stop <=. timeAfter h k) = decide (k = N))
    (hfin : ∀ k ≤ N, ((HasInf.inf : F) <=. timeAfter h k) = false) {fuel n : Nat} (hf : 0 < fuel) (hn : N < n) (resource : Ptr UInt8) :
    ∃ ctx mv, Importer.Euler.simulateStateSpace .built h stop fuel n resource =
      .ret (.OK, (List.range (N + 1)).map fun k => ⟨timeAfter h k, [StateSpace.elems 3 (StateSpace.upd (StateSpace.setStartValues ctx mv).data).y]⟩) := by
  obtain ⟨c, l, w2, ctx, mv, hc, ht, ha, start⟩ := stateSpace_startedME h stop resource
  refine ⟨ctx, mv, ?_⟩
  obtain ⟨s, e, hE⟩ := Importer.Euler.simulate_succeeds (StateSpace.drives ht (h := h) (stop := stop)) hf hN hstop start hn
  obtain ⟨w', v', et⟩ := hE.mode
  obtain ⟨k, hk, hcov, hend⟩ := hE.rows
  have hT : Timeless (StateSpace.model : Model F (StateSpace.Data F)) := .stateSpace
  have hk' : k = N + 1 := hend.resolve_right fun h => by have := (h.1 hT).2; rw [h.2] at this; cases this
  subst hk'
  have hrows := hcov.eq fun hn => hn ⟨rfl, fun i hi => hi hT, hfin⟩
  have et' : (apiStateSpace StateSpace.model 0 h).call s.w.w (apiStateSpace StateSpace.model 0 h).terminate = .ret (w', .OK, []) := by
    simp only [apiStateSpace, et, Outcome.ret_bind]
  unfold Importer.Euler.simulateStateSpace
  simp only []
  rw [hc]
  simp only []
  rw [CALLS_ok ha, show (⟨(Importer.Euler.Macros.built).nx, Importer.Euler.Macros.built.nz, h, stop, false⟩ :
    Importer.Euler.Config F) = ⟨0, 0, h, stop, false⟩ from rfl, e]
  simp only [Outcome.ret_bind, Bool.false_eq_true, if_false, hE.status]
  rw [tearDown_ok et']
  rw [recorded_eq hrows hE.values]

/-- **C66** for StateSpace: the Model Exchange program, as it is built, returns `fmi3OK` and writes one row for each of the times `0, h, 2 h, …` up to the
first that is not before the stop time. -/
theorem C66_stateSpace {h stop : F} {N : Nat} (hN : N < 2 ^ 64) (hstop : ∀ k ≤ N, (stop <=. timeAfter h k) = decide (k = N))
    (hfin : ∀ k ≤ N, ((HasInf.inf : F) <=. timeAfter h k) = false) {fuel n : Nat} (hf : 0 < fuel) (hn : N < n) (resource : Ptr UInt8) :
    ∃ rows, Importer.Euler.simulateStateSpace .built h stop fuel n resource = .ret (.OK, rows) ∧
      rows.map Row.time = (List.range (N + 1)).map (timeAfter h) ∧ ∀ r ∈ rows, ∃ y, r.values = [y] ∧ y.length = 3 := by
  obtain ⟨ctx, mv, e⟩ := stateSpace_still hN hstop hfin hf hn resource
  refine ⟨_, e, by simp [Function.comp_def], ?_⟩
  intro r hr
  simp only [List.mem_map] at hr
  obtain ⟨k, -, rfl⟩ := hr
  exact ⟨_, rfl, by simp [StateSpace.elems]⟩

/-- **C66** fails for StateSpace if `NX` were `MAX_CONTINUOUS_STATES` (5, StateSpace/config.h), as for the other FMUs: the FMU has 3 states, so reading 5 states is
refused and the program ends with `fmi3Error` before it writes a row. -/
theorem C66_violated_stateSpace_meant (h stop : F) (fuel n : Nat) (resource : Ptr UInt8) :
    Importer.Euler.simulateStateSpace (.meant (StateSpace.model : Model F (StateSpace.Data F))) h stop (fuel + 1) n resource = .ret (.Error, []) := by
  obtain ⟨c, l, w, ctx, mv, hc, ht, ha, start⟩ := stateSpace_startedME h stop resource
  have D := StateSpace.drives (d := (StateSpace.setStartValues ctx mv).data) ht (h := h) (stop := stop)
  obtain ⟨w1, i, e1, hi, hj, -, k1⟩ := D.update (i := (Importer.Euler.Sim.start (⟨5, 0, h, stop, false⟩ : Importer.Euler.Config F) w).info) start
  obtain ⟨-, hterm⟩ := hj .stateSpace
  obtain ⟨w2, e2, k2⟩ := D.enterCT (k1 hterm)
  obtain ⟨w3, v3, e3⟩ : ∃ w3 v3, (Importer.Euler.api3 StateSpace.model []).getStates w2 (List.replicate 5 (Arith.lit 0)) 5 = .ret (w3, .Error, v3) := by
    have hd : w2.inst.mv.data.n = 3 := (k2.dims (by decide)).2.1
    have ha : FMI3.allowed w2.inst.ctx FMI3.MASK_GetContinuousStateDerivatives = true := (FMI3.allowed_fn w2.inst.ctx .getContinuousStates).2 (by rw [k2.state]; decide)
    simp only [Importer.Euler.api3, FMI3.step, World.run, getContinuousStates]
    rw [begin_ok (mask := FMI3.MASK_GetContinuousStateDerivatives) ha]
    simp only [StateSpace.model, assertNotNull, Option.isNone_some, Bool.false_eq_true, if_false, StateSpace.checkNx, hd]
    exact ⟨_, _, rfl⟩
  unfold Importer.Euler.simulateStateSpace
  simp only []
  rw [hc]
  simp only []
  rw [CALLS_ok ha]
  simp only [Importer.Euler.simulate, Importer.Euler.initial, Importer.Euler.iterate, Importer.Euler.CALL, Importer.Euler.watch, Importer.Euler.Run.call]
  rw [show ((Importer.Euler.Sim.start (⟨(Importer.Euler.Macros.meant (StateSpace.model : Model F (StateSpace.Data F))).nx,
      (Importer.Euler.Macros.meant (StateSpace.model : Model F (StateSpace.Data F))).nz, h, stop, false⟩ : Importer.Euler.Config F)
      (⟨w, .OK, Arith.lit 0, []⟩ : Importer.Euler.Run F _ (List F))).info) =
    (Importer.Euler.Sim.start (⟨5, 0, h, stop, false⟩ : Importer.Euler.Config F) w).info from rfl]
  have e1' := e1
  simp only [Importer.Euler.Sim.start] at e1' ⊢
  rw [e1']
  simp only [Outcome.ret_bind, if_true, hterm, hi, Bool.false_eq_true, if_false, e2, Importer.Euler.Macros.meant]
  rw [show (StateSpace.model : Model F (StateSpace.Data F)).maxNX = 5 from rfl, show (StateSpace.model : Model F (StateSpace.Data F)).maxNZ = 0 from rfl]
  simp only [gt_iff_lt, Nat.lt_irrefl, if_false, Nat.zero_lt_succ, if_true, e3, Outcome.ret_bind]
  rfl

end

/-- **C78** is violated by the Model Exchange program of StateSpace as it is built: the outputs stay at their initial values (1, 2, 3), while the Co-Simulation
program writes `1.001ᵏ (1, 2, 3)` (`C65_stateSpace_rows`). -/
theorem C78_violated_stateSpace {h stop : XRat} {N : Nat} (hN : N < 2 ^ 64) (hstop : ∀ k ≤ N, (stop <=. timeAfter h k) = decide (k = N))
    (hfin : ∀ k ≤ N, ((HasInf.inf : XRat) <=. timeAfter h k) = false) {fuel n : Nat} (hf : 0 < fuel) (hn : N < n) (resource : Ptr UInt8) :
    Importer.Euler.simulateStateSpace .built h stop fuel n resource =
      .ret (.OK, (List.range (N + 1)).map fun k => ⟨timeAfter h k, [[.fin 1, .fin 2, .fin 3]]⟩) := by
  obtain ⟨ctx, mv, e⟩ := stateSpace_still hN hstop hfin hf hn resource
  rw [e]
  have hh := start_holds ctx mv
  rw [← hh.dims.2.2, show StateSpace.elems (StateSpace.setStartValues ctx mv).data.r (StateSpace.upd (StateSpace.setStartValues ctx mv).data).y =
    LinearSystem.vector startSystem.out from by rw [hh.dims.2.2]; exact StateSpace.elems_vector hh.out]
  rw [show LinearSystem.vector startSystem.out = [.fin 1, .fin 2, .fin 3] by decide +kernel]

/-- The numbers of the example program. -/
example (resource : Ptr UInt8) : Importer.Euler.simulateStateSpace .built (XRat.fin (1/1000)) (.fin 10) 1 10001 resource =
    .ret (.OK, (List.range 10001).map fun k => ⟨timeAfter (XRat.fin (1/1000)) k, [[.fin 1, .fin 2, .fin 3]]⟩) :=
  C78_violated_stateSpace (N := 10000) (by decide) (stop_multiple (by decide +kernel) (by decide +kernel)) (fun k _ => finite_times k) (by decide) (by decide) resource

example (resource : Ptr UInt8) : ∃ rows, Importer.Euler.simulateStateSpace .built (XRat.fin (1/1000)) (.fin 10) 1 10001 resource = .ret (.OK, rows) ∧
    rows.map Row.time = (List.range 10001).map (timeAfter (XRat.fin (1/1000))) ∧ ∀ r ∈ rows, ∃ y, r.values = [y] ∧ y.length = 3 :=
  C66_stateSpace (N := 10000) (by decide) (stop_multiple (by decide +kernel) (by decide +kernel)) (fun k _ => finite_times k) (by decide) (by decide) resource

end FMI3
end Verif
