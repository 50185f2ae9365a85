import Verif.Lemmas.Driver
import Verif.Lemmas.Programs
import Verif.Lemmas.EventInfo
import Verif.Examples

/-!
# C65: the simulation programs run the Reference FMUs to completion
-/

set_option linter.unusedSectionVars false

namespace Verif
open Importer.CoSim

/-! ## Consequences of the specification -/

section
variable {F W O V : Type} [Arith F] {call : W → O → Outcome (W × Status × V)} {goes : W → F → W → Prop} {ends : W → F → List (Row F V) → Prop}
  {P : Program F O} {w₀ : W}

theorem AllOK.inv {Q : W → Prop} (hQ : ∀ {w o w' v}, Q w → call w o = .ret (w', .OK, v) → Q w') {w w' : W} {os vs} (h : AllOK call w os w' vs) :
    Q w → Q w' := by
  induction h with
  | nil => exact id
  | cons e _ ih => exact fun hq => ih (hQ hq e)

theorem Visits.inv {Q : W → Prop} (hQ : ∀ {w o w' v}, Q w → call w o = .ret (w', .OK, v) → Q w') {k : Nat} {w w' : W} {row}
    (h : Visits call P k w w' row) (hq : Q w) : Q w' := by
  obtain ⟨-, w₁, vs, h1, h2⟩ := h
  exact h2.inv hQ (h1.inv hQ hq)

theorem Proceeds.inv {Q : W → Prop} (hQ : ∀ {w o w' v}, Q w → call w o = .ret (w', .OK, v) → Q w')
    (hG : ∀ {w t w'}, Q w → goes w t w' → Q w') {k : Nat} {w : W} {rows} (h : Proceeds call goes P w₀ k w rows) : Q w₀ → Q w := by
  induction h with
  | zero => exact id
  | succ _ hv hg ih => exact fun hq => hG (hv.inv hQ (ih hq)) hg

theorem Proceeds.times {k : Nat} {w : W} {rows} (h : Proceeds call goes P w₀ k w rows) :
    rows.map Row.time = (List.range k).map P.point := by
  induction h with
  | zero => rfl
  | succ _ hv _ ih => simp [List.range_succ, ih, hv.1]

/-- If the FMU never ends the simulation, there is one row for each communication point. -/
theorem Simulated.times {Q : W → Prop} (hQ : ∀ {w o w' v}, Q w → call w o = .ret (w', .OK, v) → Q w')
    (hG : ∀ {w t w'}, Q w → goes w t w' → Q w') (hE : ∀ {w t last}, Q w → ¬ends w t last) (hq : Q w₀) {N : Nat} {rows}
    (h : Simulated call goes ends P w₀ N rows) : rows.map Row.time = (List.range (N + 1)).map P.point := by
  cases h with
  | complete hp hv => simp [List.range_succ, hp.times, hv.1]
  | ended _ hp hv he => exact absurd he (hE (hv.inv hQ (hp.inv hQ hG hq)))

end

theorem stop_iff {O : Type} {P : Program XRat O} {h : Rat} (hh : P.h = .fin h) (h0 : 0 < h) {N : Nat} (hs : P.stopTime = .fin (N * h)) :
    ∀ k ≤ N, (P.stopTime <=. P.point k) = decide (k = N) := by
  intro k hk
  rw [Program.point, hh, hs]
  change decide ((N : Rat) * h ≤ (k : Rat) * h) = _
  rw [decide_eq_decide]
  constructor
  · intro h1
    have := le_of_mul_le_mul_right h1 h0
    exact Nat.le_antisymm hk (by exact_mod_cast this)
  · rintro rfl; exact le_refl _

namespace FMI2
section
variable {D : Type} {m : Model XRat D} {p : Profile XRat D}

/-- **C65** for FMI 2.0: if the start values, inputs and recorded variables of the program are those of the FMU and the stop time is a
multiple of the communication step size, then the program examples/simulate_fmi2_cs.c returns `fmi2OK`, and all calls it made returned
`fmi2OK`, up to the step in which the FMU ends the simulation (Stair), after which the variables were recorded for the last successful
time. The number of passes that the model provides must suffice: `N + 1` for the program, and for a step as many as solver steps fit
into twice the simulated time. -/
theorem C65 (hm : Describes m p) {P : Program XRat (Op XRat)} (hP : Fits m p P) {hh h : Rat} (hh' : m.h = .fin hh) (hPh : P.h = .fin h)
    (h0 : 0 < h) {N : Nat} (hs : P.stopTime = .fin (N * h)) {fuel K n : Nat} (hK : 2 * (N * h) + 1 ≤ K * hh) (hf : K < fuel)
    (hb : fuel * N + K < 2 ^ 64) (hn : N < n) (resource : Ptr UInt8)
    (hneeds : ∀ c l, instantiate m (some "instance1") .coSimulation (some m.token) resource (some true) false true = (some c, l) → p.needs c.ctx) :
    ∃ c l w₀ vs rows, instantiate m (some "instance1") .coSimulation (some m.token) resource (some true) false true = (some c, l) ∧
      AllOK (step m fuel) (.fresh c) (P.start ++ [.setupExperiment (Arith.lit 0) true P.stopTime, .enterInitializationMode,
        .exitInitializationMode]) w₀ vs ∧
      simulate2 m P fuel n resource = .ret (.OK, rows) ∧
      Simulated (step m fuel) (Goes m fuel P) (EndsSimulation m fuel P) P w₀ N rows := by
  obtain ⟨c, l, hc⟩ := created hm resource
  have hnc := hneeds c l hc
  obtain ⟨w₀, vs, ha, hr⟩ := started (hh := hh) (h := h) hm hc hnc hP hs (fuel := fuel)
  have ht : c.ctx.typ = .coSimulation := (createModelInstance_ctx (show createModelInstance m false true false (some "instance1") (some m.token)
    resource false true .coSimulation = (some c, l) from hc)).1
  obtain ⟨rows, h1, h2⟩ := (drives hm ht hnc hP hh' hPh h0 le_rfl hK hb hf).loop (stop_iff hPh h0 hs) (w₀ := w₀) (n := n) (k := 0) (Nat.zero_le _)
    (by omega) .zero hr
  refine ⟨c, l, w₀, vs, rows, hc, ha, ?_, h2⟩
  unfold simulate2
  rw [hc]
  simp only []
  rw [CALLS_ok (api := api2 m fuel P.h) ha]
  exact h1

/-- **C65** for the FMUs that do not end the simulation, which are all but Stair: the results are those for the communication points
`0, h, 2 h, …, N h`. -/
theorem C65_complete (hm : Describes m p) (ht : Timeless m) {P : Program XRat (Op XRat)} (hP : Fits m p P) {hh h : Rat} (hh' : m.h = .fin hh)
    (hPh : P.h = .fin h) (h0 : 0 < h) {N : Nat} (hs : P.stopTime = .fin (N * h)) {fuel K n : Nat} (hK : 2 * (N * h) + 1 ≤ K * hh)
    (hf : K < fuel) (hb : fuel * N + K < 2 ^ 64) (hn : N < n) (resource : Ptr UInt8)
    (hneeds : ∀ c l, instantiate m (some "instance1") .coSimulation (some m.token) resource (some true) false true = (some c, l) → p.needs c.ctx) :
    ∃ rows, simulate2 m P fuel n resource = .ret (.OK, rows) ∧
      rows.map Row.time = (List.range (N + 1)).map fun k => .fin (k * h) := by
  obtain ⟨c, l, w₀, vs, rows, hc, ha, h1, h2⟩ := C65 hm hP hh' hPh h0 hs hK hf hb hn resource hneeds
  have hok := hm.ref.eff.okOrError
  refine ⟨rows, h1, ?_⟩
  have := h2.times (Q := Reachable m .coSimulation) (fun hq e => hq.call hok e) (fun hq ⟨_, e⟩ => hq.call hok e) ?_
    (ha.inv (fun hq e => hq.call hok e) ⟨_, _, _, _, _, _, c, l, _, 0, [], [], hc, ⟨rfl, fun _ => rfl, fun _ _ e => by cases e⟩, rfl⟩)
  · rw [this]
    congr 1
    funext k
    rw [Program.point, hPh]; rfl
  · rintro w t last hq ⟨w₁, w₂, w₃, o, t', vs, e, -⟩
    obtain ⟨hs, -, k, -, hl⟩ := doStep_loop hok e (by simp)
    have h3 : w₁.inst.mv.terminateSimulation = false := ((hq.call hok e).mv hok ht.inv ⟨rfl, rfl⟩).inst.1
    rw [hl.terminated.1 rfl] at h3
    cases h3

end

/-! The hypotheses hold for the programs of all FMUs; the numbers are those of the example programs. -/

example (resource : Ptr UInt8) : ∃ rows, simulate2 BouncingBall.model bouncingBall2 7001 3001 resource = .ret (.OK, rows) ∧
    rows.map Row.time = (List.range 3001).map fun (k : Nat) => XRat.fin (k * (1/1000)) :=
  C65_complete .bouncingBall .bouncingBall fits_bouncingBall (N := 3000) (fuel := 7001) (n := 3001) (K := 7000) rfl rfl (by decide +kernel) (by decide +kernel) (by decide +kernel)
    (by decide) (by decide) (by decide) resource fun _ _ _ => trivial

example (resource : Ptr UInt8) : ∃ rows, simulate2 Dahlquist.model dahlquist2 211 101 resource = .ret (.OK, rows) ∧
    rows.map Row.time = (List.range 101).map fun (k : Nat) => XRat.fin (k * (1/10)) :=
  C65_complete .dahlquist .dahlquist fits_dahlquist (N := 100) (fuel := 211) (n := 101) (K := 210) rfl rfl (by decide +kernel) (by decide +kernel) (by decide +kernel)
    (by decide) (by decide) (by decide) resource fun _ _ _ => trivial

example (resource : Ptr UInt8) : ∃ rows, simulate2 VanDerPol.model vanDerPol2 4101 2001 resource = .ret (.OK, rows) ∧
    rows.map Row.time = (List.range 2001).map fun (k : Nat) => XRat.fin (k * (1/100)) :=
  C65_complete .vanDerPol .vanDerPol fits_vanDerPol (N := 2000) (fuel := 4101) (n := 2001) (K := 4100) rfl rfl (by decide +kernel) (by decide +kernel) (by decide +kernel)
    (by decide) (by decide) (by decide) resource fun _ _ _ => trivial

example (resource : Ptr UInt8) : ∃ rows, simulate2 (Feedthrough.model false) feedthrough2 51 21 resource = .ret (.OK, rows) ∧
    rows.map Row.time = (List.range 21).map fun (k : Nat) => XRat.fin (k * (1/10)) :=
  C65_complete .feedthrough .feedthrough fits_feedthrough (N := 20) (fuel := 51) (n := 21) (K := 50) rfl rfl (by decide +kernel) (by decide +kernel) (by decide +kernel)
    (by decide) (by decide) (by decide) resource fun _ _ _ => trivial

/-- Resource needs its file: here any file that the resource location leads to. -/
example {fs : Resource.FileSystem} {resource : Ptr UInt8} {path b} (h1 : Resource.resourcePath false resource = .ret (.path path))
    (h2 : fs path = some b) : ∃ rows, simulate2 (Resource.model false fs) resource2 4 2 resource = .ret (.OK, rows) ∧
    rows.map Row.time = (List.range 2).map fun (k : Nat) => XRat.fin (k * 1) :=
  C65_complete (.resource fs) (.resource fs) (fits_resource fs) (N := 1) (fuel := 4) (n := 2) (K := 3) rfl rfl (by decide +kernel) (by decide +kernel) (by decide +kernel)
    (by decide) (by decide) (by decide) resource fun c l hc => by cases hc; exact ⟨path, b, h1, h2⟩

/-- Stair ends the simulation at 9: the last row but one belongs to the communication point before, the last one to the last successful
time. -/
example : ∃ rows, simulate2 Stair.model stair2 106 51 none = .ret (.OK, rows) ∧
    (∃ (c : Comp XRat Stair.Data) (w₀ : World XRat Stair.Data), Simulated (step Stair.model 106) (Goes Stair.model 106 stair2)
      (EndsSimulation Stair.model 106 stair2) stair2 w₀ 50 rows) ∧
    rows.map Row.time = (List.range 45).map (fun (k : Nat) => XRat.fin (k * (1/5))) ++ [.fin 9] := by
  obtain ⟨c, l, w₀, vs, rows, -, -, h1, h2⟩ := C65 .stair (p := .stair) fits_stair (P := stair2) (N := 50) (fuel := 106) (n := 51) (K := 105) rfl rfl
    (by decide +kernel) (by decide +kernel) (by decide +kernel) (by decide) (by decide) (by decide) none fun _ _ _ => trivial
  refine ⟨rows, h1, ⟨c, w₀, h2⟩, ?_⟩
  have : (simulate2 Stair.model stair2 106 51 none).is (fun x => decide (x.2.map Row.time = (List.range 45).map (fun (k : Nat) => XRat.fin (k * (1/5))) ++ [.fin 9])) = true := by
    decide +kernel
  rw [h1] at this
  simpa [Outcome.is] using this

/-- If the stop time is not a multiple of the communication step size, the program fails: the last step would end after the stop time
and is refused. -/
theorem C65_not_multiple : ∃ rows, simulate2 Dahlquist.model { dahlquist2 with h := XRat.fin (2/5), stopTime := XRat.fin 1 } 100 100 none = .ret (.Error, rows) ∧
    rows.map Row.time = [XRat.fin 0, XRat.fin (2/5), XRat.fin (4/5)] := by
  obtain ⟨⟨s, rows⟩, e, h⟩ := Outcome.exists_of_is (r := simulate2 (Dahlquist.model : Model XRat _)
    { dahlquist2 with h := XRat.fin (2/5), stopTime := XRat.fin 1 } 100 100 none)
    (p := fun x => decide (x.1 = .Error) && decide (x.2.map Row.time = [.fin 0, .fin (2/5), .fin (4/5)])) (by decide +kernel)
  simp only [Bool.and_eq_true, decide_eq_true_eq] at h
  obtain ⟨rfl, h⟩ := h
  exact ⟨rows, e, h⟩

end FMI2

namespace FMI3
section
variable {D : Type} {m : Model XRat D} {p : Profile XRat D}

/-- **C65** for FMI 3.0, all Reference FMUs but StateSpace: if the start values, inputs and recorded variables of the program are those of
the FMU and the stop time is a multiple of the communication step size, then the program examples/simulate_fmi3_cs.c returns `fmi3OK`, and
all calls it made returned `fmi3OK`, up to the step in which the FMU asks to end the simulation (Stair). -/
theorem C65_partial (hm : Describes m p) {P : Program XRat (Op XRat)} (hP : Fits m p P) {hh h : Rat} (hh' : m.h = .fin hh) (hPh : P.h = .fin h)
    (h0 : 0 < h) {N : Nat} (hs : P.stopTime = .fin (N * h)) {fuel K n : Nat} (hK : 2 * (N * h) + 1 ≤ K * hh) (hf : K < fuel)
    (hb : fuel * N + K < 2 ^ 64) (hn : N < n) (resource : Ptr UInt8)
    (hneeds : ∀ c l, instantiateCoSimulation m (some "instance1") (some m.token) resource false false false true false true = (some c, l) →
      p.needs c.ctx) :
    ∃ c l w₀ vs rows, instantiateCoSimulation m (some "instance1") (some m.token) resource false false false true false true = (some c, l) ∧
      AllOK (step m fuel) (.fresh c) (P.start ++ [.enterInitializationMode (Arith.lit 0) true P.stopTime, .exitInitializationMode]) w₀ vs ∧
      simulate3 m P fuel n resource = .ret (.OK, rows) ∧
      Simulated (step m fuel) (Goes m fuel P) (EndsSimulation m fuel P) P w₀ N rows := by
  obtain ⟨c, l, hc⟩ := created hm resource
  have hnc := hneeds c l hc
  obtain ⟨w₀, vs, ha, hr⟩ := started (hh := hh) (h := h) hm hc hnc hP hs (fuel := fuel)
  obtain ⟨-, ht, -, h2, h3⟩ := created_ongoing hm hc
  obtain ⟨rows, h1, h2⟩ := (drives hm ht hnc h2 h3 hP hh' hPh h0 le_rfl hK hb hf).loop (stop_iff hPh h0 hs) (w₀ := w₀) (n := n) (k := 0) (Nat.zero_le _)
    (by omega) .zero hr
  refine ⟨c, l, w₀, vs, rows, hc, ha, ?_, h2⟩
  unfold simulate3
  rw [hc]
  simp only []
  rw [CALLS_ok (api := api3 m fuel P.h) ha]
  exact h1

/-- **C65** for the FMUs that do not end the simulation, which are all but Stair (and without StateSpace): the results are those for the
communication points `0, h, 2 h, …, N h`. -/
theorem C65_complete_partial (hm : Describes m p) (ht : Timeless m) {P : Program XRat (Op XRat)} (hP : Fits m p P) {hh h : Rat} (hh' : m.h = .fin hh)
    (hPh : P.h = .fin h) (h0 : 0 < h) {N : Nat} (hs : P.stopTime = .fin (N * h)) {fuel K n : Nat} (hK : 2 * (N * h) + 1 ≤ K * hh)
    (hf : K < fuel) (hb : fuel * N + K < 2 ^ 64) (hn : N < n) (resource : Ptr UInt8)
    (hneeds : ∀ c l, instantiateCoSimulation m (some "instance1") (some m.token) resource false false false true false true = (some c, l) →
      p.needs c.ctx) :
    ∃ rows, simulate3 m P fuel n resource = .ret (.OK, rows) ∧
      rows.map Row.time = (List.range (N + 1)).map fun (k : Nat) => XRat.fin (k * h) := by
  obtain ⟨c, l, w₀, vs, rows, hc, ha, h1, h2⟩ := C65_partial hm hP hh' hPh h0 hs hK hf hb hn resource hneeds
  have hok := hm.ref.eff.okOrError
  refine ⟨rows, h1, ?_⟩
  have := h2.times (Q := Reachable m .coSimulation) (fun hq e => hq.call hok e) (fun hq ⟨_, e, _⟩ => hq.call hok e) ?_
    (ha.inv (fun hq e => hq.call hok e) ⟨c, _, 0, [], [], .cs hc, ⟨rfl, fun _ => rfl, fun _ _ e => by cases e⟩, rfl⟩)
  · rw [this]
    congr 1
    funext k
    rw [Program.point, hPh]; rfl
  · rintro w t last hq ⟨w₁, r, e, hr, -⟩
    have h3 : w₁.inst.mv.terminateSimulation = false := ((hq.call hok e).mv hok ht.inv ⟨rfl, rfl⟩).inst.1
    obtain ⟨-, k, c', ehn, b, -, -, rfl, ho⟩ := doStep_loop hok e
    cases ho
    simp only [Option.some.injEq] at hr
    simp only [hr] at h3
    cases h3

end

/-! The hypotheses hold for the programs of all FMUs; the numbers are those of the example programs. -/

example (resource : Ptr UInt8) : ∃ rows, simulate3 BouncingBall.model bouncingBall3 7001 3001 resource = .ret (.OK, rows) ∧
    rows.map Row.time = (List.range 3001).map fun (k : Nat) => XRat.fin (k * (1/1000)) :=
  C65_complete_partial .bouncingBall .bouncingBall fits_bouncingBall (N := 3000) (fuel := 7001) (n := 3001) (K := 7000) rfl rfl (by decide +kernel) (by decide +kernel) (by decide +kernel)
    (by decide) (by decide) (by decide) resource fun _ _ _ => trivial

example (resource : Ptr UInt8) : ∃ rows, simulate3 Dahlquist.model dahlquist3 211 101 resource = .ret (.OK, rows) ∧
    rows.map Row.time = (List.range 101).map fun (k : Nat) => XRat.fin (k * (1/10)) :=
  C65_complete_partial .dahlquist .dahlquist fits_dahlquist (N := 100) (fuel := 211) (n := 101) (K := 210) rfl rfl (by decide +kernel) (by decide +kernel) (by decide +kernel)
    (by decide) (by decide) (by decide) resource fun _ _ _ => trivial

example (resource : Ptr UInt8) : ∃ rows, simulate3 VanDerPol.model vanDerPol3 4101 2001 resource = .ret (.OK, rows) ∧
    rows.map Row.time = (List.range 2001).map fun (k : Nat) => XRat.fin (k * (1/100)) :=
  C65_complete_partial .vanDerPol .vanDerPol fits_vanDerPol (N := 2000) (fuel := 4101) (n := 2001) (K := 4100) rfl rfl (by decide +kernel) (by decide +kernel) (by decide +kernel)
    (by decide) (by decide) (by decide) resource fun _ _ _ => trivial

example (f32 : XRat → UInt32) (resource : Ptr UInt8) : ∃ rows, simulate3 (Feedthrough.model true) (feedthrough3 f32) 51 21 resource = .ret (.OK, rows) ∧
    rows.map Row.time = (List.range 21).map fun (k : Nat) => XRat.fin (k * (1/10)) :=
  C65_complete_partial .feedthrough .feedthrough (fits_feedthrough f32) (N := 20) (fuel := 51) (n := 21) (K := 50) rfl rfl (by decide +kernel) (by change XRat.fin 2 = _; decide +kernel) (by decide +kernel)
    (by decide) (by decide) (by decide) resource fun _ _ _ => trivial

/-- Resource needs its file: here any file that the resource location leads to. -/
example {fs : Resource.FileSystem} {resource : Ptr UInt8} {path b} (h1 : Resource.resourcePath true resource = .ret (.path path))
    (h2 : fs path = some b) : ∃ rows, simulate3 (Resource.model true fs) resource3 4 2 resource = .ret (.OK, rows) ∧
    rows.map Row.time = (List.range 2).map fun (k : Nat) => XRat.fin (k * 1) :=
  C65_complete_partial (.resource fs) (.resource fs) (fits_resource fs) (N := 1) (fuel := 4) (n := 2) (K := 3) rfl rfl (by decide +kernel) (by decide +kernel) (by decide +kernel)
    (by decide) (by decide) (by decide) resource fun c l hc => by cases hc; exact ⟨path, b, h1, h2⟩

/-- Stair asks to end the simulation in the step to 9; the row for 9 is not written. -/
example : ∃ rows, simulate3 Stair.model stair3 106 51 none = .ret (.OK, rows) ∧
    (∃ (w₀ : World XRat Stair.Data), Simulated (step Stair.model 106) (Goes Stair.model 106 stair3)
      (EndsSimulation Stair.model 106 stair3) stair3 w₀ 50 rows) ∧
    rows.map Row.time = (List.range 45).map (fun (k : Nat) => XRat.fin (k * (1/5))) := by
  obtain ⟨c, l, w₀, vs, rows, -, -, h1, h2⟩ := C65_partial .stair (p := .stair) fits_stair (P := stair3) (N := 50) (fuel := 106) (n := 51) (K := 105) rfl rfl
    (by decide +kernel) (by decide +kernel) (by decide +kernel) (by decide) (by decide) (by decide) none fun _ _ _ => trivial
  refine ⟨rows, h1, ⟨w₀, h2⟩, ?_⟩
  have : (simulate3 Stair.model stair3 106 51 none).is (fun x => decide (x.2.map Row.time = (List.range 45).map (fun (k : Nat) => XRat.fin (k * (1/5))))) = true := by
    decide +kernel
  rw [h1] at this
  simpa [Outcome.is] using this

/-- If the stop time is not a multiple of the communication step size, the program fails. -/
theorem C65_not_multiple : ∃ rows, simulate3 Dahlquist.model { dahlquist3 with h := XRat.fin (2/5), stopTime := XRat.fin 1 } 100 100 none = .ret (.Error, rows) ∧
    rows.map Row.time = [XRat.fin 0, XRat.fin (2/5), XRat.fin (4/5)] := by
  obtain ⟨⟨s, rows⟩, e, h⟩ := Outcome.exists_of_is (r := simulate3 (Dahlquist.model : Model XRat _)
    { dahlquist3 with h := XRat.fin (2/5), stopTime := XRat.fin 1 } 100 100 none)
    (p := fun x => decide (x.1 = .Error) && decide (x.2.map Row.time = [.fin 0, .fin (2/5), .fin (4/5)])) (by decide +kernel)
  simp only [Bool.and_eq_true, decide_eq_true_eq] at h
  obtain ⟨rfl, h⟩ := h
  exact ⟨rows, e, h⟩

end FMI3
end Verif
