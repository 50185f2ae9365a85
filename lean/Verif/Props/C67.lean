import Verif.Lemmas.Marching
import Verif.Lemmas.Programs
import Verif.Lemmas.EventInfo
import Verif.Props.C28
import Verif.Examples

/-!
# C67: the programs with early return and with Event Mode run the Reference FMUs to completion
-/

set_option linter.unusedSectionVars false

namespace Verif
open Importer.CoSim

/-! ## Consequences of the specification -/

section
variable {early events : Prop} {h d stop T : Rat} {l : List Rat}

theorem Marches.mono {early' events' : Prop} (he : early → early') (hv : events → events') (m : Marches early events h d stop l T) :
    Marches early' events' h d stop l T := by
  induction m with
  | start => exact .start
  | step _ a b c d e ih => exact ih.step a b c d fun h => he (e h)
  | event _ a b c d e f ih => exact ih.event a b c d (fun h => he (e h)) (hv f)

/-- The times do not decrease, and no time is after the one reached. -/
theorem Marches.sorted (hh : 0 ≤ h) (m : Marches early events h d stop l T) : l.Pairwise (· ≤ ·) ∧ ∀ t ∈ l, t ≤ T := by
  induction m with
  | start => simp
  | @step l t t' k _ _ _ e _ _ ih =>
    have : t ≤ t' := by
      have := mul_nonneg (Nat.cast_nonneg (α := Rat) k) hh
      linarith
    refine ⟨List.pairwise_append.2 ⟨ih.1, by simp, fun a ha b hb => ?_⟩, fun a ha => ?_⟩
    · rw [List.mem_singleton.1 hb]; exact (ih.2 a ha).trans this
    · rcases List.mem_append.1 ha with ha | ha
      · exact (ih.2 a ha).trans this
      · rw [List.mem_singleton.1 ha]
  | @event l t t' k _ _ _ e _ _ _ ih =>
    have : t ≤ t' := by
      have := mul_nonneg (Nat.cast_nonneg (α := Rat) k) hh
      linarith
    refine ⟨List.pairwise_append.2 ⟨ih.1, by simp, fun a ha b hb => ?_⟩, fun a ha => ?_⟩
    · have : b = t' := by simpa using hb
      subst this; exact (ih.2 a ha).trans ‹_›
    · rcases List.mem_append.1 ha with ha | ha
      · exact (ih.2 a ha).trans this
      · exact le_of_eq (by simpa using ha)

/-- Without early return and without tolerance the times would be `0, d, 2 d, …`; in general the rows are at multiples of the step size of the solver. -/
theorem Marches.grid (m : Marches early events h d stop l T) : (∃ k : Nat, T = k * h) ∧ ∀ t ∈ l, ∃ k : Nat, t = k * h := by
  induction m with
  | start => exact ⟨⟨0, by simp⟩, fun t ht => ⟨0, by simpa using ht⟩⟩
  | @step l t t' k _ _ _ e _ _ ih =>
    obtain ⟨⟨j, rfl⟩, h2⟩ := ih
    have : ∃ i : Nat, t' = i * h := ⟨j + k, by rw [e]; push_cast; ring⟩
    refine ⟨this, fun a ha => ?_⟩
    rcases List.mem_append.1 ha with ha | ha
    · exact h2 a ha
    · rw [List.mem_singleton.1 ha]; exact this
  | @event l t t' k _ _ _ e _ _ _ ih =>
    obtain ⟨⟨j, rfl⟩, h2⟩ := ih
    have : ∃ i : Nat, t' = i * h := ⟨j + k, by rw [e]; push_cast; ring⟩
    refine ⟨this, fun a ha => ?_⟩
    rcases List.mem_append.1 ha with ha | ha
    · exact h2 a ha
    · have : a = t' := by simpa using ha
      subst this; assumption

end

namespace FMI3
section
variable {D : Type} {m : Model XRat D} {p : Profile XRat D}

/-- The first event iteration does not end the simulation. -/
theorem first_update (hm : Describes m p) {emu era : Bool} {w w' : World XRat D} (hp : Prepared m emu era w) (ht : w.inst.ctx.time = .fin 0)
    (ho : ¬p.over w.inst.mv.data) {fuel a o} (e : step m fuel w (.updateDiscreteStates a) = .ret (w', .OK, o))
    (hT : Timeless m → w'.inst.mv.terminateSimulation = false) : w'.inst.mv.terminateSimulation = false := by
  cases hm
  case stair =>
    obtain ⟨h1, h2, h3⟩ := hp.stair
    simp only [FMI3.step, World.run, updateDiscreteStates, begin, beginFunction] at e
    obtain ⟨⟨c1, s1, o1⟩, e2, e1⟩ := Outcome.bind_eq_ret.1 e
    cases e1
    split at e2
    · simp only [Stair.model, call] at e2
      obtain ⟨⟨c2, s2, u⟩, e3, e2⟩ := Outcome.bind_eq_ret.1 e2
      obtain ⟨mv, e4, rfl⟩ := lift_eq_ret.1 e3
      have hcl : isClose (XRat.fin 0) (Arith.lit 1 : XRat) = false := by decide +kernel
      have ho' : w.inst.mv.data.counter < 10 := by
        have : ¬(10 ≤ w.inst.mv.data.counter) := ho
        omega
      unfold Stair.eventUpdate at e4
      rw [ht, h2, hcl, Bool.and_false, if_neg (by simp), Outcome.ret_bind, if_neg (by omega)] at e4
      cases e4
      cases e2
      simpa using ho'
    · cases e2
  all_goals exact hT (by constructor)

theorem AllOK.prepared {emu era : Bool} {fuel : Nat} {w w' : World XRat D} {ops vs} (h : AllOK (step m fuel) w ops w' vs) :
    (∀ op ∈ ops, op.fn ∉ [Fn.doStep, .updateDiscreteStates, .setFMUState, .enterStepMode]) → Prepared m emu era w → Prepared m emu era w' := by
  induction h with
  | nil => exact fun _ => id
  | cons e _ ih => exact fun ho hp => ih (fun op h => ho op (List.mem_cons_of_mem _ h)) (hp.call e (ho _ (List.mem_cons_self ..)))

theorem Access.prepares {mode : Mode} {op : Op XRat} (h : Access m p mode op) : op.fn ∉ [Fn.doStep, .updateDiscreteStates, .setFMUState, .enterStepMode] := by
  obtain ⟨⟨t, e⟩ | ⟨t, e⟩, -⟩ := h <;> simp [e]

/-- **C67** for examples/cs_early_return.c, all Reference FMUs but StateSpace: if the start values, inputs and recorded variables of the program are those of
the FMU and the communication step size is a multiple `q` of the step size of the solver, the program returns `fmi3OK`. It records the variables at the
times reached, which go on to the stop time unless the FMU asks to end the simulation (Stair); a step is shorter than requested only for FMUs that
have events. -/
theorem C67_early_return_partial (hm : Describes m p) {P : Program XRat (Op XRat)} (hP : Fits m p P) {hh stop : Rat} (hh' : m.h = .fin hh) {q : Nat}
    (hq : 0 < q) (hPh : P.h = .fin (q * hh)) (hs : 0 ≤ stop) (hPs : P.stopTime = .fin stop) {fuel K n : Nat} (hK : 2 * stop + 1 ≤ K * hh)
    (hf : K < fuel) (hb : K + fuel < 2 ^ 64) (hn : K < n)
    (hneeds : ∀ c l, instantiateCoSimulation m (some "instance1") (some m.token) none false false true true false true = (some c, l) → p.needs c.ctx) :
    ∃ rows, earlyReturn m P fuel n = .ret (.OK, rows) ∧
      ∃ l T, rows.map Row.time = l.map XRat.fin ∧ Marches (m.eventUpdate ≠ none) False hh (q * hh) stop l T ∧ (Timeless m → stop < T + q * hh) := by
  obtain ⟨c, l, hc, ho, ht, hst, hemu, hera⟩ := createdEarly hm (emu := false) (by simp)
  have hnc := hneeds c l hc
  obtain ⟨w, vs, ha, hM, ho⟩ := startedEarly (hh := hh) hm hc ho ht hst hemu hnc hP.start (inputs := []) (by simp) hs (fuel := fuel)
  obtain ⟨rows, e, h⟩ := earlyReturnLoop_ok hm ht hnc hera hq hs hK hb hf hPh hPs hh' hP (n := n) (rows := []) (l := [0]) (term := false) hM (fun _ => ho)
    (fun _ => rfl) .start rfl (by omega)
  refine ⟨rows, ?_, h⟩
  unfold earlyReturn
  rw [hc]
  simp only []
  rw [CALLS_ok (api := api3 m fuel P.h) (hPs ▸ ha)]
  exact e

/-- **C67** for examples/cs_event_mode.c, all Reference FMUs with events but StateSpace: the inputs are set in Initialization Mode and in
Event Mode, and the program returns `fmi3OK`. There are two rows for the time of an event, one before and one after it. The others cannot be
instantiated with `eventModeUsed` (C03). -/
theorem C67_event_mode_partial (hm : Describes m p) (he : m.eventUpdate ≠ none) {P : Program XRat (Op XRat)} (hP : FitsEvents m p P) {hh stop : Rat}
    (hh' : m.h = .fin hh) {q : Nat} (hq : 0 < q) (hPh : P.h = .fin (q * hh)) (hs : 0 ≤ stop) (hPs : P.stopTime = .fin stop) {fuel K n iter : Nat}
    (hK : 2 * stop + 1 ≤ K * hh) (hf : K < fuel) (hb : K + fuel < 2 ^ 64) (hn : K < n) (hi : 0 < iter)
    (hneeds : ∀ c l, instantiateCoSimulation m (some "instance1") (some m.token) none false true true true false true = (some c, l) → p.needs c.ctx) :
    ∃ rows, eventMode m P fuel iter n = .ret (.OK, rows) ∧
      ∃ l T, rows.map Row.time = l.map XRat.fin ∧ Marches True True hh (q * hh) stop l T ∧ (Timeless m → stop < T + q * hh) := by
  obtain ⟨c, l, hc, ho, ht, hst, hemu, hera⟩ := createdEarly hm (emu := true) (fun _ => he)
  have hnc := hneeds c l hc
  obtain ⟨w, vs, ha, hM, ho⟩ := startedEarly (hh := hh) hm hc ho ht hst hemu hnc hP.start hP.initial hs (fuel := fuel)
  have hp : Prepared m true true w := AllOK.prepared ha (fun op h => by
      rcases List.mem_append.1 h with h | h
      · exact (hP.start op h).prepares
      · rcases List.mem_cons.1 h with rfl | h
        · simp [Op.fn]
        · rcases List.mem_append.1 h with h | h
          · exact (hP.initial op h).prepares
          · rw [List.mem_singleton.1 h]; simp [Op.fn])
    ⟨_, _, _, _, _, _, _, c, l, _, hc, ⟨rfl, fun _ => rfl, fun _ _ e => by cases e⟩, .none⟩
  obtain ⟨w₁, term, e₁, M₁, hterm, o₁, o, e₁'⟩ := updateStates_ok hm ht hnc (P := P) hM ho hi (fuel := fuel) (rows := [])
    (kont := fun w terminate => if terminate then tearDown (api3 m fuel P.h) w .OK []
      else CALLS (api3 m fuel P.h) [.enterStepMode] w [] fun w _ => eventModeLoop m P fuel iter n (Arith.lit 0) false w [])
  obtain rfl : term = false := hterm ▸ first_update hm hp hM.ticks.time ho e₁' fun ht => ht.runs hm M₁.alive
  obtain ⟨w₂, v₂, e₂, A₂, o₂, t₂⟩ := M₁.alive.enterStepMode hm ht hnc fuel
  obtain ⟨rows, e, l, T, h1, h2, h3⟩ := eventModeLoop_ok hm ht hnc hera hq hs hK hb hf hPh hPs hh' hP hi (n := n) (rows := []) (l := [0]) (term := false)
    (M₁.of_times A₂ t₂) (fun _ => o₂ (o₁ rfl)) (fun _ => rfl) .start rfl (by omega)
  refine ⟨rows, ?_, l, T, h1, h2.mono (fun _ => trivial) id, h3⟩
  unfold eventMode
  rw [hc]
  simp only []
  rw [CALLS_ok (api := api3 m fuel P.h) (hPs ▸ ha), e₁, if_neg (by simp), CALLS_ok (api := api3 m fuel P.h) (AllOK.cons (call := FMI3.step m fuel) e₂ .nil)]
  exact e

end

/-! The programs are built with BouncingBall (examples/Examples.cmake); the numbers are those of BouncingBall/config.h. -/

example : ∃ rows, earlyReturn BouncingBall.model { bouncingBall3 with h := XRat.fin (10 * (1/1000)) } 7001 7001 = .ret (.OK, rows) ∧
    ∃ l T, rows.map Row.time = l.map XRat.fin ∧ Marches True False (1/1000) (10 * (1/1000)) 3 l T ∧ 3 < T + 10 * (1/1000) := by
  obtain ⟨rows, e, l, T, h1, h2, h3⟩ := C67_early_return_partial .bouncingBall (p := .bouncingBall) (P := { bouncingBall3 with h := XRat.fin (10 * (1/1000)) })
    ⟨fits_bouncingBall.start, fits_bouncingBall.inputs, fits_bouncingBall.record⟩ (hh := 1/1000) (stop := 3) rfl (q := 10) (by decide) (by decide +kernel)
    (by decide +kernel) rfl (fuel := 7001) (K := 7000) (n := 7001) (by decide +kernel) (by decide) (by decide) (by decide) fun _ _ _ => trivial
  exact ⟨rows, e, l, T, h1, h2.mono (fun _ => trivial) id, h3 .bouncingBall⟩

example : ∃ rows, eventMode BouncingBall.model { bouncingBall3 with h := XRat.fin (10 * (1/1000)) } 7001 1 7001 = .ret (.OK, rows) ∧
    ∃ l T, rows.map Row.time = l.map XRat.fin ∧ Marches True True (1/1000) (10 * (1/1000)) 3 l T ∧ 3 < T + 10 * (1/1000) := by
  obtain ⟨rows, e, l, T, h1, h2, h3⟩ := C67_event_mode_partial .bouncingBall (p := .bouncingBall) (P := { bouncingBall3 with h := XRat.fin (10 * (1/1000)) })
    nofun ⟨fits_bouncingBall.start, by simp [bouncingBall3], by simp [bouncingBall3], fits_bouncingBall.record⟩ (hh := 1/1000) (stop := 3) rfl (q := 10) (by decide) (by decide +kernel)
    (by decide +kernel) rfl (fuel := 7001) (K := 7000) (n := 7001) (iter := 1) (by decide +kernel) (by decide) (by decide) (by decide) (by decide) fun _ _ _ => trivial
  exact ⟨rows, e, l, T, h1, h2, h3 .bouncingBall⟩

/-- Stair with steps of size 2: every step ends early at the next time event. -/
example : ∃ rows, earlyReturn Stair.model { stair3 with h := XRat.fin (10 * (1/5)) } 106 106 = .ret (.OK, rows) ∧
    (∃ l T, rows.map Row.time = l.map XRat.fin ∧ Marches True False (1/5) (10 * (1/5)) 10 l T) ∧
    rows.map Row.time = (List.range 10).map fun (k : Nat) => XRat.fin k := by
  obtain ⟨rows, e, l, T, h1, h2, -⟩ := C67_early_return_partial .stair (p := .stair) (P := { stair3 with h := XRat.fin (10 * (1/5)) })
    ⟨fits_stair.start, fits_stair.inputs, fits_stair.record⟩ (hh := 1/5) (stop := 10) (by decide +kernel) (q := 10) (by decide) (by decide +kernel)
    (by decide +kernel) rfl (fuel := 106) (K := 105) (n := 106) (by decide +kernel) (by decide) (by decide) (by decide) fun _ _ _ => trivial
  refine ⟨rows, e, ⟨l, T, h1, h2.mono (fun _ => trivial) id⟩, ?_⟩
  have : (earlyReturn Stair.model { stair3 with h := XRat.fin (10 * (1/5)) } 106 106).is (fun x => decide (x.2.map Row.time = (List.range 10).map fun (k : Nat) => XRat.fin k)) = true := by
    decide +kernel
  rw [e] at this
  simpa [Outcome.is] using this

/-- Stair with Event Mode: two rows for each event. -/
example : ∃ rows, eventMode Stair.model { stair3 with h := XRat.fin (10 * (1/5)) } 106 1 106 = .ret (.OK, rows) ∧
    (∃ l T, rows.map Row.time = l.map XRat.fin ∧ Marches True True (1/5) (10 * (1/5)) 10 l T) ∧
    rows.map Row.time = .fin 0 :: ((List.range 9).flatMap fun (k : Nat) => [XRat.fin (k + 1), .fin (k + 1)]) := by
  obtain ⟨rows, e, l, T, h1, h2, -⟩ := C67_event_mode_partial .stair (p := .stair) nofun (P := { stair3 with h := XRat.fin (10 * (1/5)) })
    ⟨fits_stair.start, by simp [stair3], by simp [stair3], fits_stair.record⟩ (hh := 1/5) (stop := 10) (by decide +kernel) (q := 10) (by decide) (by decide +kernel)
    (by decide +kernel) rfl (fuel := 106) (K := 105) (n := 106) (iter := 1) (by decide +kernel) (by decide) (by decide) (by decide) (by decide) fun _ _ _ => trivial
  refine ⟨rows, e, ⟨l, T, h1, h2⟩, ?_⟩
  have : (eventMode Stair.model { stair3 with h := XRat.fin (10 * (1/5)) } 106 1 106).is (fun x => decide (x.2.map Row.time = .fin 0 :: ((List.range 9).flatMap fun (k : Nat) => [XRat.fin (k + 1), .fin (k + 1)]))) = true := by
    decide +kernel
  rw [e] at this
  simpa [Outcome.is] using this

/-- examples/cs_intermediate_update.c always fails: it adds the step size to the time that `fmi3DoStep` has already advanced, so that the second
`fmi3DoStep` is called for a communication point one step ahead of the one the FMU has reached, and is refused. The numbers are those of
BouncingBall/config.h, with which the program is built. -/
theorem C67_violated : intermediateUpdate BouncingBall.model { bouncingBall3 with h := XRat.fin (10 * (1/1000)) } 7001 7001 = .ret (.Error, []) := by
  obtain ⟨⟨s, rows⟩, e, h⟩ := Outcome.exists_of_is (r := intermediateUpdate BouncingBall.model { bouncingBall3 with h := XRat.fin (10 * (1/1000)) } 7001 7001)
    (p := fun x => decide (x.1 = .Error) && x.2.isEmpty) (by decide +kernel)
  simp only [Bool.and_eq_true, decide_eq_true_eq, List.isEmpty_iff] at h
  obtain ⟨rfl, rfl⟩ := h
  exact e

end FMI3
end Verif
