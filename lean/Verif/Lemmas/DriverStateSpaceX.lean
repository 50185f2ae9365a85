import Verif.Lemmas.DriverStateSpace

/-! # The Model Exchange program of StateSpace with the 3 continuous states of the instance -/

set_option linter.unusedSectionVars false

namespace Verif
open Importer.CoSim

namespace StateSpace
section
variable {F : Type} [Arith F] [HasInf F] {c₀ : Comp F (Data F)} {d : Data F} {w : FMI3.World F (Data F)}

theorem Still.of {mode mode' : Mode} (h : Still c₀ d mode w) {op w' o d'} (e : FMI3.step model 0 w op = .ret (w', .OK, o))
    (hs : w'.inst.ctx.state = mode') (hd : upd w'.inst.mv.data = upd d') : Still c₀ d' mode' w' :=
  have hok := (RefFMU3.stateSpace (F := F)).eff.okOrError
  ⟨⟨h.reach.call hok e, FMI3.step_inv hok (FMI3.kept model c₀) h.kept _ _ e, hs⟩, hd⟩

theorem length_three {α : Type} {l : List α} (h : l.length = 3) : ∃ a b c, l = [a, b, c] := by
  match l, h with
  | [a, b, c], _ => exact ⟨a, b, c, rfl⟩

theorem Still.states (h : Still c₀ d .continuousTimeMode w) {l : List F} (hl : l.length = 3) :
    ∃ w', (Importer.Euler.api3 model []).getStates w l 3 = .ret (w', .OK, elems 3 d.x) ∧ Still c₀ d .continuousTimeMode w' := by
  obtain ⟨a, b, c, rfl⟩ := length_three hl
  have hd := h.dims (by decide)
  have hb := inBounds_of hd
  have hn : w.inst.mv.data.n = 3 := hd.2.1
  have ha : FMI3.allowed w.inst.ctx FMI3.MASK_GetContinuousStateDerivatives = true := (FMI3.allowed_fn w.inst.ctx .getContinuousStates).2 (by rw [h.state]; decide)
  have hx : w.inst.mv.data.x = d.x := show (upd _).x = (upd _).x from congrArg Data.x h.data
  have e : FMI3.step model 0 w (.getContinuousStates (some [a, b, c]) 3) = .ret (w, .OK, .reals (some (elems 3 d.x))) := by
    simp only [FMI3.step, FMI3.World.run, FMI3.getContinuousStates]
    rw [FMI3.begin_ok (mask := FMI3.MASK_GetContinuousStateDerivatives) ha]
    simp only [model, assertNotNull, Option.isNone_some, Bool.false_eq_true, if_false, checkNx, guarded, hb, if_true, hn, ne_eq, not_true, elems_three, hx]
    rfl
  exact ⟨w, by simp only [Importer.Euler.api3, e, Outcome.ret_bind], h⟩

theorem Still.nominals (h : Still c₀ d .continuousTimeMode w) {l : List F} (hl : l.length = 3) :
    ∃ w' v, (Importer.Euler.api3 model []).getNominals w l 3 = .ret (w', .OK, v) ∧ Still c₀ d .continuousTimeMode w' := by
  obtain ⟨a, b, c, rfl⟩ := length_three hl
  have hd := h.dims (by decide)
  have hn : w.inst.mv.data.n = 3 := hd.2.1
  have ha : FMI3.allowed w.inst.ctx FMI3.MASK_GetContinuousStateDerivatives = true := (FMI3.allowed_fn w.inst.ctx .getContinuousStates).2 (by rw [h.state]; decide)
  have e : FMI3.step model 0 w (.getNominals (some [a, b, c]) 3) = .ret (w, .OK, .reals (some (elems 3 fun _ => Arith.lit 1))) := by
    simp only [FMI3.step, FMI3.World.run, FMI3.getNominals]
    rw [FMI3.begin_ok (mask := FMI3.MASK_GetContinuousStateDerivatives) ha]
    simp only [model, assertNotNull, Option.isNone_some, Bool.false_eq_true, if_false, checkNx, hn, ne_eq, not_true, elems_three]
    rfl
  exact ⟨w, elems 3 fun _ => Arith.lit 1, by simp only [Importer.Euler.api3, e, Outcome.ret_bind], h⟩

theorem Still.derivatives (h : Still c₀ d .continuousTimeMode w) {l : List F} (hl : l.length = 3) :
    ∃ w', (Importer.Euler.api3 model []).getDerivatives w l 3 = .ret (w', .OK, elems 3 (upd d).der_x) ∧ Still c₀ d .continuousTimeMode w' := by
  obtain ⟨a, b, c, rfl⟩ := length_three hl
  have hd := h.dims (by decide)
  have hb := inBounds_of hd
  have hn : w.inst.mv.data.n = 3 := hd.2.1
  have ha : FMI3.allowed w.inst.ctx FMI3.MASK_GetContinuousStateDerivatives = true := (FMI3.allowed_fn w.inst.ctx .getDerivatives).2 (by rw [h.state]; decide)
  have hx : (upd w.inst.mv.data).der_x = (upd d).der_x := congrArg Data.der_x h.data
  have e : FMI3.step model 0 w (.getDerivatives (some [a, b, c]) 3) =
      .ret ({ w with inst := { w.inst with mv := calcValues w.inst.mv } }, .OK, .reals (some (elems 3 (upd d).der_x))) := by
    simp only [FMI3.step, FMI3.World.run, FMI3.getDerivatives]
    rw [FMI3.begin_ok (mask := FMI3.MASK_GetContinuousStateDerivatives) ha]
    simp only [model, assertNotNull, Option.isNone_some, Bool.false_eq_true, if_false, checkNx, calculateValues, guarded, hb, if_true, hn, ne_eq, not_true, Outcome.ret_bind]
    rw [show (calcValues w.inst.mv).data.n = 3 from hn, elems_three, elems_three, ← hx]
    rfl
  exact ⟨_, by simp only [Importer.Euler.api3, e, Outcome.ret_bind], h.of e h.state ((upd_upd _).trans h.data)⟩

theorem upd_states {a b : Data F} (h : upd a = upd b) (x : Nat → F) : upd { a with x := x } = upd { b with x := x } := by
  obtain ⟨m, n, r, A, B, C, D, x0, u, y, x₁, dx⟩ := a
  obtain ⟨m', n', r', A', B', C', D', x0', u', y', x₁', dx'⟩ := b
  have h1 := congrArg Data.m h
  have h2 := congrArg Data.n h
  have h3 := congrArg Data.r h
  have h4 := congrArg Data.A h
  have h5 := congrArg Data.B h
  have h6 := congrArg Data.C h
  have h7 := congrArg Data.D h
  have h8 := congrArg Data.x0 h
  have h9 := congrArg Data.u h
  have h10 := congrArg Data.der_x h
  have h11 := congrArg Data.y h
  simp only [upd] at h1 h2 h3 h4 h5 h6 h7 h8 h9 h10 h11
  subst h1 h2 h3 h4 h5 h6 h7 h8 h9
  simp only [upd, Data.mk.injEq, true_and]
  refine ⟨?_, ?_⟩ <;> funext i
  · have := congrFun h11 i
    by_cases hi : i < r
    · simp [hi]
    · simpa [hi] using this
  · have := congrFun h10 i
    by_cases hi : i < n
    · simp [hi]
    · simpa [hi] using this

/-- The states after an Euler step. -/
theorem Still.setStates (h : Still c₀ d .continuousTimeMode w) :
    ∃ w', (Importer.Euler.api3 model []).setStates w (eulerUpdate (Arith.lit (1 / 1000)) 3 (elems 3 d.x) (elems 3 (upd d).der_x)) 3 = .ret (w', .OK, ()) ∧
      Still c₀ (euler d) .continuousTimeMode w' := by
  have hd := h.dims (by decide)
  have hb := inBounds_of hd
  have hn : w.inst.mv.data.n = 3 := hd.2.1
  have hx : w.inst.mv.data.x = d.x := show (upd _).x = (upd _).x from congrArg Data.x h.data
  have ha : FMI3.allowed w.inst.ctx FMI3.MASK_SetContinuousStates = true := (FMI3.allowed_fn w.inst.ctx .setContinuousStates).2 (by rw [h.state]; decide)
  have e : FMI3.step model 0 w (.setContinuousStates (some (eulerUpdate (Arith.lit (1 / 1000)) 3 (elems 3 d.x) (elems 3 (upd d).der_x))) 3) =
      .ret ({ w with inst := { w.inst with mv := { w.inst.mv with data := { w.inst.mv.data with x := (euler d).x }, isDirtyValues := true } } }, .OK, .unit) := by
    have hX : fillVector 3 [d.x 0 +. Arith.lit (1 / 1000) *. (upd d).der_x 0, d.x 1 +. Arith.lit (1 / 1000) *. (upd d).der_x 1,
        d.x 2 +. Arith.lit (1 / 1000) *. (upd d).der_x 2] d.x = (euler d).x := by
      funext i
      show fillVector _ _ _ i = if i < 3 then d.x i +. Arith.lit (1 / 1000) *. (upd d).der_x i else d.x i
      unfold fillVector
      match i with
      | 0 => rfl
      | 1 => rfl
      | 2 => rfl
      | i + 3 => rw [if_neg (by omega), if_neg (by omega)]
    simp only [FMI3.step, FMI3.World.run, FMI3.setContinuousStates]
    rw [FMI3.begin_ok (mask := FMI3.MASK_SetContinuousStates) ha]
    simp only [model, assertNotNull, Option.isNone_some, Bool.false_eq_true, if_false, checkNx, guarded, hb, if_true, hn, ne_eq, not_true, elems_three, eulerUpdate,
      readN, Ptr.read, List.getElem?_cons_zero, List.getElem?_cons_succ, Outcome.ret_bind, hx, hX]
    rfl
  refine ⟨_, by simp only [Importer.Euler.api3, e, Outcome.ret_bind], h.of e h.state ?_⟩
  exact upd_states h.data _

variable {hh stop : F}

/-- The calls of the program. -/
abbrev api (hh : F) := Importer.Euler.watch (Importer.Euler.api3 (model : Model F (Data F)) []) (calls (apiStateSpace model 0 hh).call [.recordVariables])

/-- The constants of the program, with the number of continuous states of the instance. -/
abbrev cfg (stop : F) : Importer.Euler.Config F := ⟨3, 0, Arith.lit (1 / 1000), stop, false⟩

/-- The row for the time after `k` steps. -/
def row (d : Data F) (k : Nat) : Row F (List F) := ⟨timeAfter (Arith.lit (1 / 1000)) k, [elems 3 (upd (eulers k d)).y]⟩

/-- The program at the beginning of the loop, after `k` steps. -/
structure At (c₀ : Comp F (Data F)) (d : Data F) (k : Nat) (s : Importer.Euler.Sim F (Importer.Euler.Run F (FMI3.World F (Data F)) (List F))) : Prop where
  still : Still c₀ (eulers k d) .continuousTimeMode s.w.w
  status : s.w.status = .OK
  rows : s.w.rows = (List.range (k + 1)).map (row d)
  time : s.time = timeAfter (Arith.lit (1 / 1000)) k
  step : s.step = k
  x : s.x = elems 3 (eulers k d).x
  derX : s.derX.length = 3
  term : s.info.terminateSimulation = false
  netd : s.info.nextEventTimeDefined = false
  state : s.stateEvent = false
  steps : s.stepEvent = false

theorem initial_at (hc : c₀.ctx.typ = .modelExchange) (h : Still c₀ d .eventMode w) {fuel : Nat} :
    ∃ s, Importer.Euler.initial (api hh) (cfg stop) (fuel + 1) (.start (cfg stop) ⟨w, .OK, Arith.lit 0, []⟩) = .ret (true, s) ∧ At c₀ d 0 s := by
  have D := drives (d := d) hc (h := Arith.lit (1 / 1000)) (stop := stop)
  obtain ⟨w1, i, e1, hi, hj, -, k1⟩ := D.update (i := (Importer.Euler.Sim.start (cfg stop) w).info) h
  obtain ⟨hnd, hterm⟩ := hj .stateSpace
  obtain ⟨w2, e2, k2⟩ := D.enterCT (k1 hterm)
  obtain ⟨w3, e3, k3⟩ := k2.states (l := List.replicate 3 (Arith.lit 0)) (by simp)
  obtain ⟨w4, v4, e4, k4⟩ := k3.nominals (l := List.replicate 3 (Arith.lit 0)) (by simp)
  obtain ⟨w5, e5, k5⟩ := k4.record (hh := hh)
  simp only [Importer.Euler.Sim.start] at e1
  refine ⟨?s, ?e, ?_⟩
  case e =>
    simp only [Importer.Euler.initial, Importer.Euler.iterate, Importer.Euler.CALL, Importer.Euler.watch, Importer.Euler.Run.call, Importer.Euler.Sim.start]
    rw [e1]
    simp only [Outcome.ret_bind, if_true, hterm, hi, Bool.false_eq_true, if_false, e2, gt_iff_lt, Nat.lt_irrefl, Nat.zero_lt_succ, e3, e4, e5]
    rfl
  · exact ⟨k5, rfl, rfl, rfl, rfl, rfl, rfl, hterm, hnd, rfl, rfl⟩

theorem eulers_succ (k : Nat) (d : Data F) : eulers (k + 1) d = euler (eulers k d) := eulers_add k 1 d

theorem pass_at (hc : c₀.ctx.typ = .modelExchange) {k : Nat} {s} (h : At c₀ d k s) (hk : k + 1 < 2 ^ 64)
    (hinf : ((HasInf.inf : F) <=. timeAfter (Arith.lit (1 / 1000)) k) = false) (hs : (stop <=. timeAfter (Arith.lit (1 / 1000)) k) = false) {fuel : Nat} :
    ∃ s', Importer.Euler.pass (api hh) (cfg stop) fuel s = .ret (true, s') ∧ At c₀ d (k + 1) s' := by
  obtain ⟨⟨w, st, rt, rows⟩, time, step, x, nom, derX, z, pz, info, se, pe⟩ := s
  obtain ⟨h1, h2, h3, h4, h5, h6, h7, h8, h9, h10, h11⟩ := h
  simp only at h1 h2 h3 h4 h5 h6 h7 h8 h9 h10 h11
  subst h2 h3 h4 h5 h6 h10 h11
  have D := drives (d := eulers step d) hc (h := Arith.lit (1 / 1000)) (stop := stop)
  have D' := drives (d := euler (eulers step d)) hc (h := Arith.lit (1 / 1000)) (stop := stop)
  obtain ⟨w1, e1, k1⟩ := h1.derivatives h7
  obtain ⟨w2, e2, k2⟩ := D.setTime (k := step + 1) k1
  rw [show timeAfter (cfg (F := F) stop).h (step + 1) = Arith.lit ((step + 1 : Nat) : Rat) *. Arith.lit (1 / 1000) by simp [timeAfter, cfg]] at e2
  obtain ⟨w3, e3, k3⟩ := k2.setStates
  obtain ⟨w4, e4, k4⟩ := D'.completed (a := false) (b := false) k3
  obtain ⟨w5, e5, k5⟩ := k4.record (hh := hh)
  have hm : (step + 1) % 2 ^ 64 = step + 1 := Nat.mod_eq_of_lt hk
  refine ⟨?s, ?e, ?_⟩
  case e =>
    unfold Importer.Euler.pass
    simp only [Importer.Euler.eventOccurred, h8, h9, hinf, Bool.false_and, Bool.or_false, Bool.false_eq_true, if_false, hs]
    simp only [Importer.Euler.advance, Importer.Euler.detect, Importer.Euler.finish, Importer.Euler.CALL, Importer.Euler.watch, Importer.Euler.Run.call, hm,
      gt_iff_lt, Nat.lt_irrefl, Nat.zero_lt_succ, if_true, if_false, e1, Outcome.ret_bind, e2, e3, h8, e4, e5, Bool.false_and, Bool.false_eq_true]
    rfl
  · rw [← eulers_succ] at k5 e5
    refine ⟨k5, rfl, ?_, ?_, rfl, ?_, rfl, rfl, h9, rfl, rfl⟩
    · show (List.range (step + 1)).map (row d) ++ [⟨_, _⟩] = _
      rw [List.range_succ (n := step + 1), List.map_append]
      simp only [List.map_cons, List.map_nil, row, timeAfter, Nat.succ_ne_zero, if_false, eulers_succ]
    · simp only [timeAfter, Nat.succ_ne_zero, if_false]
    · rw [eulers_succ]; rfl

theorem passes_at (hc : c₀.ctx.typ = .modelExchange) {s} (h : At c₀ d 0 s) {N : Nat} (hN : N < 2 ^ 64)
    (hinf : ∀ k ≤ N, ((HasInf.inf : F) <=. timeAfter (Arith.lit (1 / 1000)) k) = false)
    (hs : ∀ k ≤ N, (stop <=. timeAfter (Arith.lit (1 / 1000)) k) = decide (k = N)) {fuel : Nat} (n : Nat) :
    ∃ s', Importer.Euler.passes (api hh) (cfg stop) fuel n s = .ret (decide (n ≤ N), s') ∧ At c₀ d (min n N) s' := by
  induction n with
  | zero => exact ⟨s, by simp [Importer.Euler.passes], by simpa using h⟩
  | succ n ih =>
    obtain ⟨s', e, k⟩ := ih
    simp only [Importer.Euler.passes, e, Outcome.ret_bind, decide_eq_true_eq]
    by_cases h1 : n < N
    · rw [if_pos (by omega), decide_eq_true (show n + 1 ≤ N by omega), Nat.min_eq_left (show n + 1 ≤ N by omega)]
      rw [Nat.min_eq_left (by omega)] at k
      exact pass_at hc k (by omega) (hinf n (by omega)) (by rw [hs n (by omega)]; exact decide_eq_false (by omega))
    · rw [Nat.min_eq_right (by omega)] at k
      rw [decide_eq_false (show ¬ n + 1 ≤ N by omega), Nat.min_eq_right (by omega)]
      by_cases h2 : n ≤ N
      · obtain rfl : n = N := by omega
        rw [if_pos h2]
        refine ⟨s', ?_, k⟩
        unfold Importer.Euler.pass
        simp only [Importer.Euler.eventOccurred, k.term, k.netd, k.time, hinf n h2, k.state, k.steps, Bool.false_and, Bool.or_false, Bool.false_eq_true, if_false, hs n h2,
          decide_true, if_true]
      · rw [if_neg h2]
        exact ⟨s', rfl, k⟩

end
end StateSpace
end Verif
