import Verif.Lemmas.DriverInputs

/-!
# The rows of the programs for Model Exchange with inputs, for FMUs without states and events
-/

set_option linter.unusedSectionVars false

namespace Verif.Importer.Euler
open Verif CoSim

section
variable {F W V O S : Type} [Arith F] [HasInf F]

/-- What is needed of the API: `E s` holds in Event Mode, `C s` in Continuous-Time Mode, where `s` is what the inputs were set to; `T` holds if the
instance can be terminated. The recorded values depend on `s` only. -/
structure Fed (api : Api F W) (record : W → Outcome (W × Status × List V)) (call : W → O → Outcome (W × Status × V)) (inp : Inputs F O) (E C : S → W → Prop)
    (T : W → Prop) (out : S → List V) (setC : F → Bool → S → S) (setD : F → S → S) : Prop where
  update : ∀ {s w i}, E s w → ∃ w' i', api.update w i = .ret (w', .OK, i') ∧ i'.newDiscreteStatesNeeded = false ∧ i'.terminateSimulation = false ∧
    i'.nextEventTimeDefined = false ∧ E s w'
  enterCT : ∀ {s w}, E s w → ∃ w', api.enterContinuousTimeMode w = .ret (w', .OK, ()) ∧ C s w'
  enterEM : ∀ {s w}, C s w → ∃ w', api.enterEventMode w = .ret (w', .OK, ()) ∧ E s w'
  setTime : ∀ {s w t}, C s w → ∃ w', api.setTime w t = .ret (w', .OK, ()) ∧ C s w'
  completed : ∀ {s w a b}, C s w → ∃ w', api.completed w a b = .ret (w', .OK, (false, false)) ∧ C s w'
  record : ∀ {s w}, C s w → ∃ w', record w = .ret (w', .OK, out s) ∧ C s w'
  stop : ∀ {s w}, C s w → T w
  continuousC : ∀ {s w} t, C s w → ∃ w' vs, calls call (inp.continuous t false) w = .ret (w', .OK, vs) ∧ C (setC t false s) w'
  continuousE : ∀ {s w} t, E s w → ∃ w' vs, calls call (inp.continuous t true) w = .ret (w', .OK, vs) ∧ E (setC t true s) w'
  discreteE : ∀ {s w} t, E s w → ∃ w' vs, calls call (inp.discrete t) w = .ret (w', .OK, vs) ∧ E (setD t s) w'

variable {api : Api F W} {record : W → Outcome (W × Status × List V)} {call : W → O → Outcome (W × Status × V)} {inp : Inputs F O} {E C : S → W → Prop}
  {T : W → Prop} {out : S → List V} {setC : F → Bool → S → S} {setD : F → S → S} {cfg : Config F} {s₀ : S}

/-- The program is in the mode `M` at the time of step `k`, with the rows `rows`. -/
structure FedAt (cfg : Config F) (M : W → Prop) (k : Nat) (rows : List (Row F V)) (s : Sim F (Run F W V)) : Prop where
  mode : M s.w.w
  status : s.w.status = .OK
  wtime : s.w.time = timeAfter cfg.h k
  time : s.time = timeAfter cfg.h k
  step : s.step = k
  rows : s.w.rows = rows
  flags : s.stepEvent = false ∧ s.stateEvent = false
  info : s.info.terminateSimulation = false ∧ s.info.nextEventTimeDefined = false

/-- The inputs after the input event at `t`, if there is one. -/
def handled (inp : Inputs F O) (setC : F → Bool → S → S) (setD : F → S → S) (t : F) (s : S) : S :=
  if inp.next t <=. t then setD t (setC t true s) else s

/-- The inputs at the step `k`, before an input event. -/
def fedTo (inp : Inputs F O) (setC : F → Bool → S → S) (setD : F → S → S) (h : F) (s₀ : S) : Nat → S
  | 0 => s₀
  | k + 1 => setC (timeAfter h (k + 1)) false (handled inp setC setD (timeAfter h k) (fedTo inp setC setD h s₀ k))

/-- The rows for the step `k`. -/
def rowsAt (inp : Inputs F O) (setC : F → Bool → S → S) (setD : F → S → S) (h : F) (s₀ : S) (out : S → List V) (k : Nat) : List (Row F V) :=
  let s := fedTo inp setC setD h s₀ k
  let t := timeAfter h k
  ⟨t, out s⟩ :: if inp.next t <=. t then [⟨t, out (setD t (setC t true s))⟩] else []

theorem FedAt.to {M M' : W → Prop} {k : Nat} {rows : List (Row F V)} {s : Sim F (Run F W V)} (h : FedAt cfg M k rows s) {w : W} (hw : M' w) :
    FedAt cfg M' k rows { s with w := { s.w with w := w, status := .OK } } :=
  ⟨hw, rfl, h.wtime, h.time, h.step, h.rows, h.flags, h.info⟩

theorem fed_record (D : Fed api record call inp E C T out setC setD) {Q : Bool → Sim F (Run F W V) → Prop} {s : Sim F (Run F W V)} {n : Nat} {σ : S}
    {rows : List (Row F V)} {k : Sim F (Run F W V) → Unit → Result F (Run F W V)} (h : FedAt cfg (C σ) n rows s)
    (hk : ∀ w : Run F W V, FedAt cfg (C σ) n (rows ++ [⟨timeAfter cfg.h n, out σ⟩]) { s with w := w } → Succeeds (k { s with w := w } ()) Q) :
    Succeeds (CALL s ((watch api record).record s.w) k) Q := by
  obtain ⟨w, e, hC⟩ := D.record h.mode
  have h' : FedAt cfg (C σ) n (rows ++ [⟨timeAfter cfg.h n, out σ⟩]) { s with w := { s.w with w := w, status := .OK, rows := s.w.rows ++ [⟨s.w.time, out σ⟩] } } := by
    refine ⟨hC, rfl, h.wtime, h.time, h.step, ?_, h.flags, h.info⟩
    simp [h.rows, h.wtime]
  have hg := hk _ h'
  simp only [CALL, watch, e, Outcome.ret_bind, if_true]
  exact hg

theorem fed_iterate (D : Fed api record call inp E C T out setC setD) {Q : Bool → Sim F (Run F W V) → Prop} {n : Nat} {σ : S} {rows : List (Row F V)}
    {k : Sim F (Run F W V) → Bool → Bool → Result F (Run F W V)} {fuel : Nat} (hf : 0 < fuel) {s : Sim F (Run F W V)} (h : FedAt cfg (E σ) n rows s)
    {nom val : Bool} (hk : ∀ s nom val, FedAt cfg (E σ) n rows s → Succeeds (k s nom val) Q) :
    Succeeds (iterate (watch api record) k fuel s nom val) Q := by
  obtain ⟨f, rfl⟩ : ∃ f, fuel = f + 1 := ⟨fuel - 1, by omega⟩
  unfold iterate
  obtain ⟨w, i, e, h1, h2, h3, h4⟩ := D.update (i := s.info) h.mode
  refine Succeeds.call e ?_
  simp only []
  rw [h2, if_neg (by simp), h1, if_neg (by simp)]
  exact hk _ _ _ ⟨h4, rfl, h.wtime, h.time, h.step, h.rows, h.flags, h2, h3⟩

theorem fed_initial (D : Fed api record call inp E C T out setC setD) (hx : cfg.nx = 0) (hz : cfg.nz = 0) {σ : S} {fuel : Nat} (hf : 0 < fuel)
    {s : Sim F (Run F W V)} (h : FedAt cfg (E σ) 0 [] s) :
    Succeeds (initial (watch api record) cfg fuel s) fun b s => b = true ∧ FedAt cfg (C σ) 0 [⟨timeAfter cfg.h 0, out σ⟩] s := by
  unfold initial
  refine fed_iterate D hf h ?_
  intro s _ _ h
  obtain ⟨w, e, hC⟩ := D.enterCT h.mode
  refine Succeeds.call e ?_
  have h := h.to hC
  simp only [hx, hz, gt_iff_lt, Nat.lt_irrefl, if_false]
  refine fed_record D h fun w h => .ret ⟨rfl, ?_⟩
  exact ⟨h.mode, h.status, h.wtime, h.time, rfl, h.rows, h.flags, h.info⟩

theorem fed_handle (D : Fed api record call inp E C T out setC setD) (hx : cfg.nx = 0) {fuel : Nat} (hf : 0 < fuel) {Q : Bool → Sim F (Run F W V) → Prop}
    {n : Nat} {σ : S} {rows : List (Row F V)} {s : Sim F (Run F W V)} (h : FedAt cfg (C σ) n rows s) {k : Sim F (Run F W V) → Result F (Run F W V)}
    (hi : (inp.next (timeAfter cfg.h n) <=. timeAfter cfg.h n) = true)
    (hk : ∀ s, FedAt cfg (C (setD (timeAfter cfg.h n) (setC (timeAfter cfg.h n) true σ))) n
      (rows ++ [⟨timeAfter cfg.h n, out (setD (timeAfter cfg.h n) (setC (timeAfter cfg.h n) true σ))⟩]) s → Succeeds (k s) Q) :
    Succeeds (handleWith (watch api record) (Run.apply call) inp cfg fuel s k) Q := by
  unfold handleWith
  obtain ⟨w, e, hE⟩ := D.enterEM h.mode
  refine Succeeds.call e ?_
  have h := h.to hE
  have hinp : inputEvent inp s = true := by
    unfold inputEvent; rw [h.time]; exact hi
  simp only [hinp, if_true]
  have ht : s.time = timeAfter cfg.h n := h.time
  obtain ⟨w1, vs1, e1, h1⟩ := D.continuousE s.time h.mode
  refine succeeds_apply e1 ?_
  obtain ⟨w2, vs2, e2, h2⟩ := D.discreteE s.time h1
  refine succeeds_apply e2 ?_
  rw [ht] at h2
  refine fed_iterate D hf ((h.to h1).to h2) ?_
  intro s _ _ h
  obtain ⟨w, e, hC⟩ := D.enterCT h.mode
  refine Succeeds.call e ?_
  simp only [hx, gt_iff_lt, Nat.lt_irrefl, decide_false, Bool.false_and, Bool.false_eq_true, if_false]
  exact fed_record D (h.to hC) fun w h => hk _ h

theorem fed_advance (D : Fed api record call inp E C T out setC setD) (hx : cfg.nx = 0) (hz : cfg.nz = 0) {n : Nat} (hn : n + 1 < 2 ^ 64) {σ : S}
    {rows : List (Row F V)} {s : Sim F (Run F W V)} (h : FedAt cfg (C σ) n rows s) {occ : Bool} :
    Succeeds (advanceWith (watch api record) (Run.apply call) inp cfg occ s) fun b s =>
      b = true ∧ FedAt cfg (C (setC (timeAfter cfg.h (n + 1)) false σ)) (n + 1)
        (rows ++ [⟨timeAfter cfg.h (n + 1), out (setC (timeAfter cfg.h (n + 1)) false σ)⟩]) s := by
  unfold advanceWith detect finish
  simp only [hx, hz, gt_iff_lt, Nat.lt_irrefl, if_false]
  rw [h.step, Nat.mod_eq_of_lt hn]
  have ht : timeAfter cfg.h (n + 1) = Arith.lit ((n + 1 : Nat) : Rat) *. cfg.h := by simp [timeAfter]
  rw [← ht]
  obtain ⟨w0, e, hC0⟩ := D.setTime (t := timeAfter cfg.h (n + 1)) h.mode
  refine succeeds_setTime (s := { s with step := n + 1, time := timeAfter cfg.h (n + 1) }) e ?_
  obtain ⟨w1, vs, ei, hC⟩ := D.continuousC (timeAfter cfg.h (n + 1)) hC0
  refine succeeds_apply (s := { s with step := n + 1, time := timeAfter cfg.h (n + 1), w := ⟨w0, .OK, timeAfter cfg.h (n + 1), s.w.rows⟩ }) ei ?_
  obtain ⟨w2, e2, hC2⟩ := D.completed (a := s.stepEvent) (b := s.info.terminateSimulation) hC
  refine Succeeds.call (s := { s with step := n + 1, time := timeAfter cfg.h (n + 1), w := ⟨w1, .OK, timeAfter cfg.h (n + 1), s.w.rows⟩ }) e2 ?_
  simp only []
  rw [if_neg (by simp)]
  exact fed_record D (n := n + 1) (rows := rows) (σ := setC (timeAfter cfg.h (n + 1)) false σ)
    ⟨hC2, rfl, rfl, rfl, rfl, h.rows, ⟨rfl, h.flags.2⟩, rfl, h.info.2⟩ fun w h => .ret ⟨rfl, h⟩

/-- The program is at the beginning of pass `k` through the loop. -/
def FedPass (cfg : Config F) (C : S → W → Prop) (out : S → List V) (inp : Inputs F O) (setC : F → Bool → S → S) (setD : F → S → S) (s₀ : S) (k : Nat)
    (s : Sim F (Run F W V)) : Prop :=
  FedAt cfg (C (fedTo inp setC setD cfg.h s₀ k)) k
    ((List.range k).flatMap (rowsAt inp setC setD cfg.h s₀ out) ++ [⟨timeAfter cfg.h k, out (fedTo inp setC setD cfg.h s₀ k)⟩]) s

/-- The program has ended. -/
structure FedEnd (T : W → Prop) (rows : List (Row F V)) (s : Sim F (Run F W V)) : Prop where
  mode : T s.w.w
  status : s.w.status = .OK
  rows : s.w.rows = rows

theorem fed_pass (D : Fed api record call inp E C T out setC setD) (hx : cfg.nx = 0) (hz : cfg.nz = 0) {fuel : Nat} (hf : 0 < fuel) {N : Nat} (hN : N < 2 ^ 64)
    (hstop : ∀ k ≤ N, (cfg.stopTime <=. timeAfter cfg.h k) = decide (k = N)) {k : Nat} (hk : k ≤ N) {s : Sim F (Run F W V)}
    (h : FedPass cfg C out inp setC setD s₀ k s) :
    Succeeds (passWith (watch api record) (Run.apply call) inp cfg fuel s) fun b s =>
      if b then k < N ∧ FedPass cfg C out inp setC setD s₀ (k + 1) s
      else FedEnd T ((List.range (N + 1)).flatMap (rowsAt inp setC setD cfg.h s₀ out)) s := by
  unfold passWith
  rw [h.info.1, if_neg (by simp)]
  simp only []
  have hr : (List.range (k + 1)).flatMap (rowsAt inp setC setD cfg.h s₀ out) =
      (List.range k).flatMap (rowsAt inp setC setD cfg.h s₀ out) ++ rowsAt inp setC setD cfg.h s₀ out k := by
    simp [List.range_succ, List.flatMap_append]
  have rest : ∀ occ s, FedAt cfg (C (handled inp setC setD (timeAfter cfg.h k) (fedTo inp setC setD cfg.h s₀ k))) k
      ((List.range (k + 1)).flatMap (rowsAt inp setC setD cfg.h s₀ out)) s →
      Succeeds (if cfg.stopTime <=. s.time then .ret (false, s) else advanceWith (watch api record) (Run.apply call) inp cfg occ s) fun b s =>
        if b then k < N ∧ FedPass cfg C out inp setC setD s₀ (k + 1) s
        else FedEnd T ((List.range (N + 1)).flatMap (rowsAt inp setC setD cfg.h s₀ out)) s := by
    intro occ s hs
    rw [hs.time, hstop k hk]
    by_cases hkN : k = N
    · rw [if_pos (by simpa using hkN)]
      refine .ret ?_
      rw [if_neg (by simp)]
      subst hkN
      exact ⟨D.stop hs.mode, hs.status, hs.rows⟩
    · rw [if_neg (by simpa using hkN)]
      refine (fed_advance D hx hz (by omega) hs).mono ?_
      rintro b s ⟨rfl, h1⟩
      rw [if_pos rfl]
      exact ⟨by omega, h1⟩
  have hocc : eventOccurredWith inp s = (inp.next (timeAfter cfg.h k) <=. timeAfter cfg.h k) := by
    simp [eventOccurredWith, inputEvent, h.info.2, h.flags.1, h.flags.2, h.time]
  by_cases hi : (inp.next (timeAfter cfg.h k) <=. timeAfter cfg.h k) = true
  · rw [hocc, if_pos hi]
    refine fed_handle D hx hf h hi fun s h1 => rest _ s ?_
    rw [handled, if_pos hi, hr, rowsAt, if_pos hi]
    simpa using h1
  · rw [hocc, if_neg hi]
    refine rest _ s ?_
    rw [handled, if_neg hi, hr, rowsAt, if_neg hi]
    exact h

theorem fed_passes (D : Fed api record call inp E C T out setC setD) (hx : cfg.nx = 0) (hz : cfg.nz = 0) {fuel : Nat} (hf : 0 < fuel) {N : Nat} (hN : N < 2 ^ 64)
    (hstop : ∀ k ≤ N, (cfg.stopTime <=. timeAfter cfg.h k) = decide (k = N)) {s : Sim F (Run F W V)} (h : FedPass cfg C out inp setC setD s₀ 0 s) (n : Nat) :
    Succeeds (passesWith (watch api record) (Run.apply call) inp cfg fuel n s) fun b s =>
      if b then n ≤ N ∧ FedPass cfg C out inp setC setD s₀ n s
      else FedEnd T ((List.range (N + 1)).flatMap (rowsAt inp setC setD cfg.h s₀ out)) s := by
  induction n with
  | zero => exact .ret (by rw [if_pos rfl]; exact ⟨Nat.zero_le _, h⟩)
  | succ n ih =>
    obtain ⟨b, s1, e, ih⟩ := ih
    unfold passesWith
    rw [e]
    simp only [Outcome.ret_bind]
    cases b
    · exact .ret (by simpa using ih)
    · simp only [if_true] at ih ⊢
      exact fed_pass D hx hz hf hN hstop ih.1 ih.2

/-- The rows of the program. -/
theorem fed_simulate (D : Fed api record call inp E C T out setC setD) (hx : cfg.nx = 0) (hz : cfg.nz = 0) {fuel : Nat} (hf : 0 < fuel) {N : Nat} (hN : N < 2 ^ 64)
    (hstop : ∀ k ≤ N, (cfg.stopTime <=. timeAfter cfg.h k) = decide (k = N)) {w : W} (h : E s₀ w) {n : Nat} (hn : N < n) :
    ∃ s, simulateWith (watch api record) (Run.apply call) inp cfg fuel n ⟨w, .OK, Arith.lit 0, []⟩ = .ret (false, s) ∧
      FedEnd T ((List.range (N + 1)).flatMap (rowsAt inp setC setD cfg.h s₀ out)) s := by
  obtain ⟨b, s1, e, rfl, hi⟩ := fed_initial D hx hz hf (s := Sim.start cfg ⟨w, .OK, Arith.lit 0, []⟩)
    ⟨h, rfl, rfl, rfl, rfl, rfl, ⟨rfl, rfl⟩, rfl, rfl⟩
  unfold simulateWith
  rw [e]
  simp only [Outcome.ret_bind, if_true]
  obtain ⟨b, s2, e2, h2⟩ := fed_passes (inp := inp) D hx hz hf hN hstop hi n
  cases b
  · exact ⟨s2, e2, by simpa using h2⟩
  · simp only [if_true] at h2
    omega

end
end Verif.Importer.Euler
