import Verif.Props.C65Refused

/-!
# C65: the programs fail if the stop time is not a multiple of the communication step size, also for the FMUs that may end the simulation (Stair)
-/

set_option linter.unusedSectionVars false

namespace Verif
open Importer.CoSim

section
variable {F W O V : Type} [Arith F]

/-- The simulation from `w₀` on, in which the step from the communication point `N` on is refused: either all communication points `0, …, N` are visited and the result is an error, or the FMU has ended the
simulation before, in the step from one of them on, and the result is OK. -/
inductive Refusal (call : W → O → Outcome (W × Status × V)) (goes : W → F → W → Prop) (ends : W → F → List (Row F V) → Prop) (P : Program F O) (w₀ : W) (N : Nat) :
    Status → List (Row F V) → Prop
  | refused {w w' rows row} : Proceeds call goes P w₀ N w rows → Visits call P N w w' row → Refusal call goes ends P w₀ N .Error (rows ++ [row])
  | ended {k w w' rows row last} : k < N → Proceeds call goes P w₀ k w rows → Visits call P k w w' row → ends w' (P.point k) last →
      Refusal call goes ends P w₀ N .OK (rows ++ row :: last)

variable {api : Api F W O V} {goes : W → F → W → Prop} {ends : W → F → List (Row F V) → Prop} {P : Program F O} {N : Nat} {Inv : Nat → W → Prop}

theorem Drives.refusal (h : Drives api goes ends P N Inv) (hstop : ∀ k ≤ N, (P.stopTime <=. P.point k) = false)
    (hr : ∀ {w}, Inv N w → ∃ w' x, api.advance w (P.point N) = .ret (w', .Error, x)) {w₀ : W} :
    ∀ {n k : Nat} {w : W} {rows : List (Row F V)}, k ≤ N → N < k + n → Proceeds api.call goes P w₀ k w rows → Inv k w →
      ∃ s rows', Importer.CoSim.loop api P n k w rows = .ret (s, rows') ∧ Refusal api.call goes ends P w₀ N s rows' := by
  intro n
  induction n with
  | zero => intro k w rows h1 h2; omega
  | succ n ih =>
    intro k w rows hk hn hp hi
    obtain ⟨w₁, vs, h1, hi⟩ := h.record hk hi
    obtain ⟨w₂, us, h2, hi⟩ := h.inputs hk hi
    have hv : Visits api.call P k w w₂ ⟨P.point k, vs⟩ := ⟨rfl, w₁, us, h1, h2⟩
    unfold Importer.CoSim.loop
    simp only []
    rw [CALLS_ok h1]
    change ∃ _ _, CALLS api (P.inputs (P.point k)) w₁ _ _ = _ ∧ _
    rw [CALLS_ok h2]
    change ∃ _ _, (if (P.stopTime <=. P.point k) = true then _ else _) = _ ∧ _
    rw [hstop k hk, if_neg (by simp)]
    by_cases hkN : k = N
    · subst hkN
      obtain ⟨w₃, x, h3⟩ := hr hi
      refine ⟨.Error, _, ?_, .refused hp hv⟩
      change (api.advance w₂ (P.point k) >>- _) = _
      rw [h3]
      simp only [Outcome.ret_bind, reduceCtorEq, if_false]
      simp only [tearDown, Nat.lt_irrefl, if_false]
      rfl
    · have hlt : k < N := by omega
      rcases h.advance hlt hi with ⟨w', ha, hg, hi'⟩ | ⟨w', w'', v, ha, he, ht⟩ | ⟨w', w₃, w'', t, vs', v, ha, hr, he, ht⟩
      · change ∃ _ _, (api.advance w₂ (P.point k) >>- _) = _ ∧ _
        rw [ha]
        simp only [Outcome.ret_bind, if_true]
        exact ih (by omega) (by omega) (.succ hp hv hg) hi'
      · change ∃ _ _, (api.advance w₂ (P.point k) >>- _) = _ ∧ _
        rw [ha]
        simp only [Outcome.ret_bind, if_true]
        rw [tearDown_ok ht]
        exact ⟨_, _, rfl, .ended hlt hp hv he⟩
      · change ∃ _ _, (api.advance w₂ (P.point k) >>- _) = _ ∧ _
        rw [ha]
        simp only [Outcome.ret_bind, if_true]
        rw [CALLS_ok hr, tearDown_ok ht]
        refine ⟨_, _, rfl, ?_⟩
        have := Refusal.ended hlt hp hv he
        rw [List.append_assoc]
        exact this

end

namespace FMI2
section
variable {D : Type} {m : Model XRat D} {p : Profile XRat D}

/-- **C65** for FMI 2.0, the other stop times, every Reference FMU: if the stop time lies between the multiples `N h` and `(N + 1) h` of the communication step size, and is not close to `(N + 1) h`, then the
program examples/simulate_fmi2_cs.c either ends with `fmi2Error` after the results for the communication points `0, h, …, N h`, or the FMU (Stair) has ended the simulation before. -/
theorem C65_refusal (hm : Describes m p) {P : Program XRat (Op XRat)} (hP : Fits m p P) {hh h stop : Rat} (hh' : m.h = .fin hh)
    (hPh : P.h = .fin h) (h0 : 0 < h) (hs : P.stopTime = .fin stop) {N : Nat} (h1 : N * h < stop) (h2 : stop < (N + 1) * h)
    (h3 : ¬Close ((N + 1) * h) stop) {fuel K n : Nat} (hK : 2 * stop + 1 ≤ K * hh)
    (hf : K < fuel) (hb : fuel * N + K < 2 ^ 64) (hn : N < n) (resource : Ptr UInt8)
    (hneeds : ∀ c l, instantiate m (some "instance1") .coSimulation (some m.token) resource (some true) false true = (some c, l) → p.needs c.ctx) :
    ∃ c l w₀ vs s rows, instantiate m (some "instance1") .coSimulation (some m.token) resource (some true) false true = (some c, l) ∧
      AllOK (step m fuel) (.fresh c) (P.start ++ [.setupExperiment (Arith.lit 0) true P.stopTime, .enterInitializationMode,
        .exitInitializationMode]) w₀ vs ∧
      simulate2 m P fuel n resource = .ret (s, rows) ∧
      Refusal (step m fuel) (Goes m fuel P) (EndsSimulation m fuel P) P w₀ N s rows := by
  obtain ⟨c, l, hc⟩ := created hm resource
  have hnc := hneeds c l hc
  have hpt : P.point = fun k => .fin (k * h) := by funext k; rw [Program.point, hPh]; rfl
  obtain ⟨w₀, vs, ha, hr⟩ := started (hh := hh) (h := h) hm hc hnc hP hs (fuel := fuel)
  have htyp : c.ctx.typ = .coSimulation := (createModelInstance_ctx (show createModelInstance m false true false (some "instance1") (some m.token)
    resource false true .coSimulation = (some c, l) from hc)).1
  obtain ⟨s, rows, e1, e2⟩ := (drives hm htyp hnc hP hh' hPh h0 h1.le hK hb hf).refusal (not_stop hPh h0 hs h1)
    (fun hi => by
      obtain ⟨w', o, e⟩ := hi.refused h0 h2 h3
      refine ⟨w', .goOn, ?_⟩
      change advance2 m fuel P.h _ _ = _
      rw [hpt, hPh, advance2, e]
      rfl) (w₀ := w₀) (n := n) (k := 0) (rows := []) (Nat.zero_le _) (by omega) .zero hr
  refine ⟨c, l, w₀, vs, s, rows, hc, ha, ?_, e2⟩
  unfold simulate2
  rw [hc]
  simp only []
  rw [CALLS_ok (api := api2 m fuel P.h) ha]
  exact e1

end

/-- Stair with the step size 1/5 up to 1.1: the program ends with an error after 6 rows. -/
example : ∃ s rows, simulate2 Stair.model { stair2 with h := XRat.fin (1/5), stopTime := XRat.fin (11/10) } 21 6 none = .ret (s, rows) ∧
    (∃ (w₀ : World XRat Stair.Data), Refusal (step Stair.model 21) (Goes Stair.model 21 { stair2 with h := XRat.fin (1/5), stopTime := XRat.fin (11/10) })
      (EndsSimulation Stair.model 21 { stair2 with h := XRat.fin (1/5), stopTime := XRat.fin (11/10) }) { stair2 with h := XRat.fin (1/5), stopTime := XRat.fin (11/10) } w₀ 5 s rows) ∧
    s = .Error ∧ rows.length = 6 := by
  obtain ⟨c, l, w₀, vs, s, rows, -, -, e, h⟩ := C65_refusal .stair (p := .stair) (P := { stair2 with h := XRat.fin (1/5), stopTime := XRat.fin (11/10) })
    ⟨fits_stair.start, fits_stair.inputs, fits_stair.record⟩ (N := 5) (fuel := 21) (n := 6) (K := 20) rfl rfl (by decide +kernel) rfl (by norm_num) (by norm_num)
    (by
      unfold Close tol
      rw [abs_of_nonneg (by norm_num), abs_of_nonneg (by norm_num), abs_of_nonneg (by norm_num), max_eq_left (by norm_num)]
      norm_num) (by norm_num) (by decide) (by decide) (by decide) none fun _ _ _ => trivial
  refine ⟨s, rows, e, ⟨w₀, h⟩, ?_⟩
  have : (simulate2 Stair.model { stair2 with h := XRat.fin (1/5), stopTime := XRat.fin (11/10) } 21 6 none).is (fun x => decide (x.1 = .Error ∧ x.2.length = 6)) = true := by
    decide +kernel
  rw [e] at this
  simpa [Outcome.is] using this

end FMI2

namespace FMI3
section
variable {D : Type} {m : Model XRat D} {p : Profile XRat D}

/-- **C65** for FMI 3.0, the other stop times, every Reference FMU but StateSpace (for which see `C65_refused_stateSpace`): if the stop time lies between the multiples `N h` and `(N + 1) h` of the communication step
size, and is not close to `(N + 1) h`, then the program examples/simulate_fmi3_cs.c either ends with `fmi3Error` after the results for the communication points `0, h, …, N h`, or the FMU (Stair) has ended the
simulation before. -/
theorem C65_refusal_partial (hm : Describes m p) {P : Program XRat (Op XRat)} (hP : Fits m p P) {hh h stop : Rat} (hh' : m.h = .fin hh)
    (hPh : P.h = .fin h) (h0 : 0 < h) (hs : P.stopTime = .fin stop) {N : Nat} (h1 : N * h < stop) (h2 : stop < (N + 1) * h)
    (h3 : ¬Close ((N + 1) * h) stop) {fuel K n : Nat} (hK : 2 * stop + 1 ≤ K * hh)
    (hf : K < fuel) (hb : fuel * N + K < 2 ^ 64) (hn : N < n) (resource : Ptr UInt8)
    (hneeds : ∀ c l, instantiateCoSimulation m (some "instance1") (some m.token) resource false false false true false true = (some c, l) → p.needs c.ctx) :
    ∃ c l w₀ vs s rows, instantiateCoSimulation m (some "instance1") (some m.token) resource false false false true false true = (some c, l) ∧
      AllOK (step m fuel) (.fresh c) (P.start ++ [.enterInitializationMode (Arith.lit 0) true P.stopTime, .exitInitializationMode]) w₀ vs ∧
      simulate3 m P fuel n resource = .ret (s, rows) ∧
      Refusal (step m fuel) (Goes m fuel P) (EndsSimulation m fuel P) P w₀ N s rows := by
  obtain ⟨c, l, hc⟩ := created hm resource
  have hnc := hneeds c l hc
  have hpt : P.point = fun k => .fin (k * h) := by funext k; rw [Program.point, hPh]; rfl
  obtain ⟨w₀, vs, ha, hr⟩ := started (hh := hh) (h := h) hm hc hnc hP hs (fuel := fuel)
  obtain ⟨-, htyp, -, hemu, hera⟩ := created_ongoing hm hc
  obtain ⟨s, rows, e1, e2⟩ := (drives hm htyp hnc hemu hera hP hh' hPh h0 h1.le hK hb hf).refusal (not_stop hPh h0 hs h1)
    (fun hi => by
      obtain ⟨w', r, e⟩ := hi.refused h0 h2 h3
      refine ⟨w', if r.terminateSimulation = some true then .stop none else .goOn, ?_⟩
      change advance3 m fuel P.h _ _ = _
      rw [hpt, hPh, advance3, e]
      rfl) (w₀ := w₀) (n := n) (k := 0) (rows := []) (Nat.zero_le _) (by omega) .zero hr
  refine ⟨c, l, w₀, vs, s, rows, hc, ha, ?_, e2⟩
  unfold simulate3
  rw [hc]
  simp only []
  rw [CALLS_ok (api := api3 m fuel P.h) ha]
  exact e1

end

/-- Stair with the step size 1/5 up to 9.3: it ends the simulation before the step is refused. -/
example : ∃ s rows, simulate3 Stair.model { stair3 with h := XRat.fin (1/5), stopTime := XRat.fin (93/10) } 106 47 none = .ret (s, rows) ∧
    (∃ (w₀ : World XRat Stair.Data), Refusal (step Stair.model 106) (Goes Stair.model 106 { stair3 with h := XRat.fin (1/5), stopTime := XRat.fin (93/10) })
      (EndsSimulation Stair.model 106 { stair3 with h := XRat.fin (1/5), stopTime := XRat.fin (93/10) }) { stair3 with h := XRat.fin (1/5), stopTime := XRat.fin (93/10) } w₀ 46 s rows) ∧
    s = .OK := by
  obtain ⟨c, l, w₀, vs, s, rows, -, -, e, h⟩ := C65_refusal_partial .stair (p := .stair) (P := { stair3 with h := XRat.fin (1/5), stopTime := XRat.fin (93/10) })
    ⟨fits_stair.start, fits_stair.inputs, fits_stair.record⟩ (N := 46) (fuel := 106) (n := 47) (K := 105) rfl rfl (by decide +kernel) rfl (by norm_num) (by norm_num)
    (by
      unfold Close tol
      rw [abs_of_nonneg (by norm_num), abs_of_nonneg (by norm_num), abs_of_nonneg (by norm_num), max_eq_left (by norm_num)]
      norm_num) (by norm_num) (by decide) (by decide) (by decide) none fun _ _ _ => trivial
  refine ⟨s, rows, e, ⟨w₀, h⟩, ?_⟩
  have : (simulate3 Stair.model { stair3 with h := XRat.fin (1/5), stopTime := XRat.fin (93/10) } 106 47 none).is (fun x => decide (x.1 = .OK)) = true := by
    decide +kernel
  rw [e] at this
  simpa [Outcome.is] using this

end FMI3
end Verif
