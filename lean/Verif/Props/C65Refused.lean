import Verif.Lemmas.DriverRefused

/-!
# C65: the programs fail if the stop time is not a multiple of the communication step size
-/

set_option linter.unusedSectionVars false

namespace Verif
open Importer.CoSim

theorem not_stop {O : Type} {P : Program XRat O} {h stop : Rat} (hh : P.h = .fin h) (h0 : 0 < h) {N : Nat} (hs : P.stopTime = .fin stop)
    (h1 : N * h < stop) : ∀ k ≤ N, (P.stopTime <=. P.point k) = false := by
  intro k hk
  rw [Program.point, hh, hs]
  change decide (stop ≤ (k : Rat) * h) = false
  rw [decide_eq_false_iff_not, not_le]
  exact lt_of_le_of_lt (mul_le_mul_of_nonneg_right (by exact_mod_cast hk) h0.le) h1

namespace FMI2
section
variable {D : Type} {m : Model XRat D} {p : Profile XRat D} {c₀ : Comp XRat D}

theorem Running.refused {hh h stop : Rat} {fuel N : Nat} (h0 : 0 < h) (h1 : stop < (N + 1) * h) (h2 : ¬Close ((N + 1) * h) stop)
    {w : World XRat D} (hr : Running m p c₀ hh h stop fuel N w) :
    ∃ w' o, FMI2.step m fuel w (.doStep (.fin (N * h)) (.fin h)) = .ret (w', .Error, o) := by
  have ha : allowed w.inst.ctx MASK_DoStep = true := by simp [allowed, hr.alive.state]; decide
  have hc := hr.clock
  have k1 : w.inst.nextCommunicationPoint = .fin (N * h) := congrArg Clock.expected hc
  have k2 : w.inst.stopTime = .fin stop := congrArg Clock.stop hc
  have k3 : isClose (XRat.fin (N * h)) (.fin (N * h)) = true := (isClose_fin _ _).2 (.refl _)
  have k4 : (XRat.fin h <=. (Arith.lit 0 : XRat)) = false := by
    change decide (h ≤ 0) = false
    simpa using h0
  have k5 := refuses (k := w.inst.clock) (a := N * h) (h := h) (stop := stop) (by rw [hc]) (by linarith) (by rwa [show (N * h + h : Rat) = (N + 1) * h by ring])
  rw [show w.inst.clock.stop = w.inst.stopTime from rfl, k2] at k5
  simp only [FMI2.step, World.run, FMI2.doStep, begin, beginFunction, ha, k1, k2, k3, k4, k5, Bool.not_true, Bool.false_eq_true, if_false, if_true, fail,
    Outcome.ret_bind]
  exact ⟨_, _, rfl⟩

/-- **C65** for FMI 2.0, the other stop times: if the stop time lies between the multiples `N h` and `(N + 1) h` of the communication
step size, and is not close to `(N + 1) h`, then the program examples/simulate_fmi2_cs.c ends with `fmi2Error`. It has written the results
for the communication points `0, h, …, N h` and none for the rest of the simulated time. -/
theorem C65_refused (hm : Describes m p) (ht : Timeless m) {P : Program XRat (Op XRat)} (hP : Fits m p P) {hh h stop : Rat} (hh' : m.h = .fin hh)
    (hPh : P.h = .fin h) (h0 : 0 < h) (hs : P.stopTime = .fin stop) {N : Nat} (h1 : N * h < stop) (h2 : stop < (N + 1) * h)
    (h3 : ¬Close ((N + 1) * h) stop) {fuel K n : Nat} (hK : 2 * stop + 1 ≤ K * hh)
    (hf : K < fuel) (hb : fuel * N + K < 2 ^ 64) (hn : N < n) (resource : Ptr UInt8)
    (hneeds : ∀ c l, instantiate m (some "instance1") .coSimulation (some m.token) resource (some true) false true = (some c, l) → p.needs c.ctx) :
    ∃ rows, simulate2 m P fuel n resource = .ret (.Error, rows) ∧
      rows.map Row.time = (List.range (N + 1)).map fun (k : Nat) => XRat.fin (k * h) := by
  have hok := hm.ref.eff.okOrError
  obtain ⟨c, l, hc⟩ := created hm resource
  have hnc := hneeds c l hc
  have hpt : P.point = fun k => .fin (k * h) := by funext k; rw [Program.point, hPh]; rfl
  obtain ⟨w₀, vs, ha, hr⟩ := started (hh := hh) (h := h) hm hc hnc hP hs (fuel := fuel)
  have htyp : c.ctx.typ = .coSimulation := (createModelInstance_ctx (show createModelInstance m false true false (some "instance1") (some m.token)
    resource false true .coSimulation = (some c, l) from hc)).1
  obtain ⟨w₁, rows, w₂, row, e1, e2, e3⟩ := (drives hm htyp hnc hP hh' hPh h0 h1.le hK hb hf).refused (not_stop hPh h0 hs h1)
    (fun hi => by
      obtain ⟨w', o, e⟩ := hi.refused h0 h2 h3
      refine ⟨w', .goOn, ?_⟩
      change advance2 m fuel P.h _ _ = _
      rw [hpt, hPh, advance2, e]
      rfl)
    (Q := Reachable m .coSimulation) (fun hq e => hq.call hok e) (fun hq ⟨_, e⟩ => hq.call hok e)
    (by
      rintro w t last hq ⟨w₁, w₂, w₃, o, t', vs, e, -⟩
      obtain ⟨hs, -, k, -, hl⟩ := doStep_loop hok e (by simp)
      have h3 : w₁.inst.mv.terminateSimulation = false := ((hq.call hok e).mv hok ht.inv ⟨rfl, rfl⟩).inst.1
      rw [hl.terminated.1 rfl] at h3
      cases h3)
    (ha.inv (fun hq e => hq.call hok e) ⟨_, _, _, _, _, _, c, l, _, 0, [], [], hc, ⟨rfl, fun _ => rfl, fun _ _ e => by cases e⟩, rfl⟩)
    (n := n) (k := 0) (rows := []) (Nat.zero_le _) (by omega) .zero hr
  refine ⟨rows ++ [row], ?_, by
    simp only [List.map_append, e2.times, List.map_cons, List.map_nil, e3.1, List.range_succ, hpt]⟩
  unfold simulate2
  rw [hc]
  simp only []
  rw [CALLS_ok (api := api2 m fuel P.h) ha]
  exact e1

end

/-- Dahlquist with the step size 1/5 up to any time between 1 and 1.19. -/
example {stop : Rat} (h1 : 1 < stop) (h2 : stop ≤ 119/100) (resource : Ptr UInt8) :
    ∃ rows, simulate2 Dahlquist.model { dahlquist2 with h := XRat.fin (1/5), stopTime := XRat.fin stop } 35 6 resource = .ret (.Error, rows) ∧
      rows.map Row.time = (List.range 6).map fun (k : Nat) => XRat.fin (k * (1/5)) :=
  C65_refused .dahlquist .dahlquist (P := { dahlquist2 with h := XRat.fin (1/5), stopTime := XRat.fin stop })
    ⟨fits_dahlquist.start, fits_dahlquist.inputs, fits_dahlquist.record⟩ (N := 5) (K := 34) rfl rfl (by decide +kernel) rfl (by norm_num; linarith) (by norm_num; linarith)
    (by
      unfold Close tol
      rw [abs_of_nonneg (by norm_num; linarith), abs_of_nonneg (by norm_num), abs_of_nonneg (by linarith), max_eq_left (by norm_num; linarith)]
      norm_num
      constructor <;> linarith) (by norm_num; linarith) (by decide) (by decide) (by decide) resource fun _ _ _ => trivial

end FMI2

namespace FMI3
section
variable {D : Type} {m : Model XRat D} {p : Profile XRat D} {c₀ : Comp XRat D}

theorem Running.refused {hh h stop : Rat} {fuel N : Nat} (h0 : 0 < h) (h1 : stop < (N + 1) * h) (h2 : ¬Close ((N + 1) * h) stop)
    {w : World XRat D} (hr : Running m p c₀ hh h stop fuel N w) :
    ∃ w' r, FMI3.step m fuel w (.doStep (.fin (N * h)) (.fin h) ⟨some false, some false, some false, some (Arith.lit 0)⟩) = .ret (w', .Error, .step r) := by
  have ha : allowed w.inst.ctx MASK_DoStep = true := by simp [allowed, hr.alive.state]; decide
  have hc := hr.clock
  have k1 : w.inst.nextCommunicationPoint = .fin (N * h) := congrArg Clock.expected hc
  have k2 : w.inst.stopTime = .fin stop := congrArg Clock.stop hc
  have k3 : isClose (XRat.fin (N * h)) (.fin (N * h)) = true := (isClose_fin _ _).2 (.refl _)
  have k4 : (XRat.fin h <=. (Arith.lit 0 : XRat)) = false := by
    change decide (h ≤ 0) = false
    simpa using h0
  have k5 := refuses (k := w.inst.clock) (a := N * h) (h := h) (stop := stop) (by rw [hc]) (by linarith) (by rwa [show (N * h + h : Rat) = (N + 1) * h by ring])
  rw [show w.inst.clock.stop = w.inst.stopTime from rfl, k2] at k5
  simp only [FMI3.step, World.run, FMI3.doStep, begin, beginFunction, ha, k1, k2, k3, k4, k5, Bool.not_true, Bool.false_eq_true, if_false, if_true, fail,
    Outcome.ret_bind]
  exact ⟨_, _, rfl⟩

/-- **C65** for FMI 3.0, the other stop times, all Reference FMUs but StateSpace: if the stop time lies between the multiples `N h` and `(N + 1) h` of the communication
step size, and is not close to `(N + 1) h`, then the program examples/simulate_fmi3_cs.c ends with `fmi3Error`. It has written the results
for the communication points `0, h, …, N h` and none for the rest of the simulated time. -/
theorem C65_refused_partial (hm : Describes m p) (ht : Timeless m) {P : Program XRat (Op XRat)} (hP : Fits m p P) {hh h stop : Rat} (hh' : m.h = .fin hh)
    (hPh : P.h = .fin h) (h0 : 0 < h) (hs : P.stopTime = .fin stop) {N : Nat} (h1 : N * h < stop) (h2 : stop < (N + 1) * h)
    (h3 : ¬Close ((N + 1) * h) stop) {fuel K n : Nat} (hK : 2 * stop + 1 ≤ K * hh)
    (hf : K < fuel) (hb : fuel * N + K < 2 ^ 64) (hn : N < n) (resource : Ptr UInt8)
    (hneeds : ∀ c l, instantiateCoSimulation m (some "instance1") (some m.token) resource false false false true false true = (some c, l) → p.needs c.ctx) :
    ∃ rows, simulate3 m P fuel n resource = .ret (.Error, rows) ∧
      rows.map Row.time = (List.range (N + 1)).map fun (k : Nat) => XRat.fin (k * h) := by
  have hok := hm.ref.eff.okOrError
  obtain ⟨c, l, hc⟩ := created hm resource
  have hnc := hneeds c l hc
  have hpt : P.point = fun k => .fin (k * h) := by funext k; rw [Program.point, hPh]; rfl
  obtain ⟨w₀, vs, ha, hr⟩ := started (hh := hh) (h := h) hm hc hnc hP hs (fuel := fuel)
  obtain ⟨-, htyp, -, hemu, hera⟩ := created_ongoing hm hc
  obtain ⟨w₁, rows, w₂, row, e1, e2, e3⟩ := (drives hm htyp hnc hemu hera hP hh' hPh h0 h1.le hK hb hf).refused (not_stop hPh h0 hs h1)
    (fun hi => by
      obtain ⟨w', r, e⟩ := hi.refused h0 h2 h3
      refine ⟨w', if r.terminateSimulation = some true then .stop none else .goOn, ?_⟩
      change advance3 m fuel P.h _ _ = _
      rw [hpt, hPh, advance3, e]
      rfl)
    (Q := Reachable m .coSimulation) (fun hq e => hq.call hok e) (fun hq ⟨_, e, _⟩ => hq.call hok e)
    (by
      rintro w t last hq ⟨w₁, r, e, hr, -⟩
      have h3 : w₁.inst.mv.terminateSimulation = false := ((hq.call hok e).mv hok ht.inv ⟨rfl, rfl⟩).inst.1
      obtain ⟨-, k, c', ehn, b, -, -, rfl, ho⟩ := doStep_loop hok e
      cases ho
      simp only [Option.some.injEq] at hr
      simp only [hr] at h3
      cases h3)
    (ha.inv (fun hq e => hq.call hok e) ⟨c, _, 0, [], [], .cs hc, ⟨rfl, fun _ => rfl, fun _ _ e => by cases e⟩, rfl⟩)
    (n := n) (k := 0) (rows := []) (Nat.zero_le _) (by omega) .zero hr
  refine ⟨rows ++ [row], ?_, by
    simp only [List.map_append, e2.times, List.map_cons, List.map_nil, e3.1, List.range_succ, hpt]⟩
  unfold simulate3
  rw [hc]
  simp only []
  rw [CALLS_ok (api := api3 m fuel P.h) ha]
  exact e1

end

/-- Dahlquist with the step size 1/5 up to any time between 1 and 1.19. -/
example {stop : Rat} (h1 : 1 < stop) (h2 : stop ≤ 119/100) (resource : Ptr UInt8) :
    ∃ rows, simulate3 Dahlquist.model { dahlquist3 with h := XRat.fin (1/5), stopTime := XRat.fin stop } 35 6 resource = .ret (.Error, rows) ∧
      rows.map Row.time = (List.range 6).map fun (k : Nat) => XRat.fin (k * (1/5)) :=
  C65_refused_partial .dahlquist .dahlquist (P := { dahlquist3 with h := XRat.fin (1/5), stopTime := XRat.fin stop })
    ⟨fits_dahlquist.start, fits_dahlquist.inputs, fits_dahlquist.record⟩ (N := 5) (K := 34) rfl rfl (by decide +kernel) rfl (by norm_num; linarith) (by norm_num; linarith)
    (by
      unfold Close tol
      rw [abs_of_nonneg (by norm_num; linarith), abs_of_nonneg (by norm_num), abs_of_nonneg (by linarith), max_eq_left (by norm_num; linarith)]
      norm_num
      constructor <;> linarith) (by norm_num; linarith) (by decide) (by decide) (by decide) resource fun _ _ _ => trivial

end FMI3
end Verif
