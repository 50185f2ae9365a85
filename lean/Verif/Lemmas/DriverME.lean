import Verif.Spec.SimulationME
import Verif.Lemmas.Driver
import Verif.Lemmas.EventInfo
import Verif.Lemmas.NoUbRef
import Verif.Props.C50

/-!
# The programs for Model Exchange run to completion
-/

set_option linter.unusedSectionVars false

namespace Verif.Importer.Euler
open Verif CoSim

section
variable {F W V β : Type} [Arith F] [HasInf F]

theorem CALL_ok {s : Sim F W} {r : Outcome (W × Status × β)} {k : Sim F W → β → Result F W} {w b} (h : r = .ret (w, .OK, b)) :
    CALL s r k = k { s with w := w } b := by
  subst h; rfl

/-- What is needed of the API: `E` holds in Event Mode, `C` in Continuous-Time Mode, `T` if the instance can be terminated; `J` holds for the
reported event info, `P` for the recorded values. -/
structure Drives (api : Api F W) (record : W → Outcome (W × Status × List V)) (cfg : Config F) (E C T : W → Prop) (J : EventInfo F → Prop)
    (P : List V → Prop) : Prop where
  update : ∀ {w i}, E w → ∃ w' i', api.update w i = .ret (w', .OK, i') ∧ i'.newDiscreteStatesNeeded = false ∧ J i' ∧ T w' ∧
    (i'.terminateSimulation = false → E w')
  enterCT : ∀ {w}, E w → ∃ w', api.enterContinuousTimeMode w = .ret (w', .OK, ()) ∧ C w'
  enterEM : ∀ {w}, C w → ∃ w', api.enterEventMode w = .ret (w', .OK, ()) ∧ E w'
  getStates : ∀ {w l}, C w → 0 < cfg.nx → l.length = cfg.nx → ∃ w' l', api.getStates w l cfg.nx = .ret (w', .OK, l') ∧ C w' ∧ l'.length = cfg.nx
  getNominals : ∀ {w l}, C w → 0 < cfg.nx → l.length = cfg.nx → ∃ w' l', api.getNominals w l cfg.nx = .ret (w', .OK, l') ∧ C w' ∧ l'.length = cfg.nx
  getDerivatives : ∀ {w l}, C w → 0 < cfg.nx → l.length = cfg.nx →
    ∃ w' l', api.getDerivatives w l cfg.nx = .ret (w', .OK, l') ∧ C w' ∧ l'.length = cfg.nx
  getIndicators : ∀ {w l}, C w → 0 < cfg.nz → l.length = cfg.nz →
    ∃ w' l', api.getIndicators w l cfg.nz = .ret (w', .OK, l') ∧ C w' ∧ l'.length = cfg.nz
  setStates : ∀ {w l}, C w → 0 < cfg.nx → l.length = cfg.nx → ∃ w', api.setStates w l cfg.nx = .ret (w', .OK, ()) ∧ C w'
  setTime : ∀ {w k}, C w → ∃ w', api.setTime w (timeAfter cfg.h k) = .ret (w', .OK, ()) ∧ C w'
  completed : ∀ {w a b}, C w → ∃ w', api.completed w a b = .ret (w', .OK, (false, false)) ∧ C w'
  record : ∀ {w}, C w → ∃ w' vs, record w = .ret (w', .OK, vs) ∧ C w' ∧ P vs
  stop : ∀ {w}, C w → T w
  info : ∀ {i}, J i → J { i with terminateSimulation := false }

/-- The arrays are as long as declared. -/
structure Lens (cfg : Config F) (s : Sim F W) : Prop where
  x : s.x.length = cfg.nx
  nominals : s.nominals.length = cfg.nx
  derX : s.derX.length = cfg.nx
  z : s.z.length = cfg.nz
  previousZ : s.previousZ.length = cfg.nz

variable {api : Api F W} {record : W → Outcome (W × Status × List V)} {cfg : Config F} {E C T : W → Prop} {J : EventInfo F → Prop} {P : List V → Prop}

/-- The program is in the mode `M` at the time of step `k`, with rows for the times `rows`. -/
structure AtStep (cfg : Config F) (P : List V → Prop) (M : W → Prop) (k : Nat) (rows : List F) (s : Sim F (Run F W V)) : Prop where
  mode : M s.w.w
  status : s.w.status = .OK
  wtime : s.w.time = timeAfter cfg.h k
  time : s.time = timeAfter cfg.h k
  step : s.step = k
  lens : Lens cfg s
  rows : s.w.rows.map Row.time = rows
  flags : s.stepEvent = false ∧ (cfg.nz = 0 → s.stateEvent = false)
  values : ∀ r ∈ s.w.rows, P r.values

/-- The FMU reports no events. -/
structure Eventless (cfg : Config F) (J : EventInfo F → Prop) (N : Nat) : Prop where
  indicators : cfg.nz = 0
  info : ∀ i, J i → i.nextEventTimeDefined = false ∧ i.terminateSimulation = false
  finite : ∀ k ≤ N, ((HasInf.inf : F) <=. timeAfter cfg.h k) = false

/-- The program returns and `Q` holds. -/
def Succeeds (r : Result F (Run F W V)) (Q : Bool → Sim F (Run F W V) → Prop) : Prop := ∃ b s, r = .ret (b, s) ∧ Q b s

theorem Succeeds.ret {Q : Bool → Sim F (Run F W V) → Prop} {b s} (h : Q b s) : Succeeds (.ret (b, s)) Q := ⟨b, s, rfl, h⟩

theorem Succeeds.mono {Q Q' : Bool → Sim F (Run F W V) → Prop} {r} (h : Succeeds r Q) (k : ∀ b s, Q b s → Q' b s) : Succeeds r Q' := by
  obtain ⟨b, s, e, h⟩ := h
  exact ⟨b, s, e, k b s h⟩

theorem succeeds_ite {Q : Bool → Sim F (Run F W V) → Prop} {c : Prop} [Decidable c] {r r' : Result F (Run F W V)} (h : c → Succeeds r Q) (h' : ¬c → Succeeds r' Q) :
    Succeeds (if c then r else r') Q := by
  split
  · next hc => exact h hc
  · next hc => exact h' hc

/-- A call. -/
theorem Succeeds.call {Q : Bool → Sim F (Run F W V) → Prop} {s : Sim F (Run F W V)} {r : Outcome (W × Status × β)}
    {k : Sim F (Run F W V) → β → Result F (Run F W V)} {w b} (h : r = .ret (w, .OK, b))
    (hk : Succeeds (k { s with w := { s.w with w := w, status := .OK } } b) Q) : Succeeds (CALL s (s.w.call r) k) Q := by
  subst h
  exact hk

theorem AtStep.to {M M' : W → Prop} {k : Nat} {rows : List F} {s : Sim F (Run F W V)} (h : AtStep cfg P M k rows s) {w : W} (hw : M' w) :
    AtStep cfg P M' k rows { s with w := { s.w with w := w, status := .OK } } :=
  ⟨hw, rfl, h.wtime, h.time, h.step, ⟨h.lens.x, h.lens.nominals, h.lens.derX, h.lens.z, h.lens.previousZ⟩, h.rows, h.flags, h.values⟩

/-- `recordVariables`. -/
theorem succeeds_record (D : Drives api record cfg E C T J P) {Q : Bool → Sim F (Run F W V) → Prop} {s : Sim F (Run F W V)} {n : Nat} {rows : List F}
    {k : Sim F (Run F W V) → Unit → Result F (Run F W V)} (h : AtStep cfg P C n rows s)
    (hk : ∀ w : Run F W V, AtStep cfg P C n (rows ++ [timeAfter cfg.h n]) { s with w := w } → Succeeds (k { s with w := w } ()) Q) :
    Succeeds (CALL s ((watch api record).record s.w) k) Q := by
  obtain ⟨w, vs, e, hC, hP⟩ := D.record h.mode
  have h' : AtStep cfg P C n (rows ++ [timeAfter cfg.h n]) { s with w := { s.w with w := w, status := .OK, rows := s.w.rows ++ [⟨s.w.time, vs⟩] } } := by
    refine ⟨hC, rfl, h.wtime, h.time, h.step, ⟨h.lens.x, h.lens.nominals, h.lens.derX, h.lens.z, h.lens.previousZ⟩, ?_, h.flags, ?_⟩
    · simp [h.rows, h.wtime]
    · intro r hr
      rcases List.mem_append.1 hr with hr | hr
      · exact h.values r hr
      · rw [List.mem_singleton.1 hr]; exact hP
  have hg := hk _ h'
  simp only [CALL, watch, e, Outcome.ret_bind, if_true]
  exact hg

/-- `FMI2SetTime` and `FMI3SetTime`. -/
theorem succeeds_setTime {Q : Bool → Sim F (Run F W V) → Prop} {s : Sim F (Run F W V)} {t : F} {k : Sim F (Run F W V) → Unit → Result F (Run F W V)} {w}
    (e : api.setTime s.w.w t = .ret (w, .OK, ())) (hk : Succeeds (k { s with w := ⟨w, .OK, t, s.w.rows⟩ } ()) Q) :
    Succeeds (CALL s ((watch api record).setTime s.w t) k) Q := by
  simp only [CALL, watch, Run.call, e, Outcome.ret_bind, if_true]
  exact hk

/-- The reported event info, which does not end the simulation. -/
def Goes (J : EventInfo F → Prop) (s : Sim F (Run F W V)) : Prop := J s.info ∧ s.info.terminateSimulation = false

/-- The event iteration takes one update. -/
theorem iterate_succeeds (D : Drives api record cfg E C T J P) {Q : Bool → Sim F (Run F W V) → Prop} {n : Nat} {rows : List F}
    {k : Sim F (Run F W V) → Bool → Bool → Result F (Run F W V)} {fuel : Nat} (hf : 0 < fuel) {s : Sim F (Run F W V)} (h : AtStep cfg P E n rows s)
    {nom val : Bool} (hk : ∀ s nom val, AtStep cfg P E n rows s → Goes J s → Succeeds (k s nom val) Q)
    (ht : ∀ s, AtStep cfg P T n rows s → J s.info → s.info.terminateSimulation = true → Q false s) :
    Succeeds (iterate (watch api record) k fuel s nom val) Q := by
  obtain ⟨f, rfl⟩ : ∃ f, fuel = f + 1 := ⟨fuel - 1, by omega⟩
  unfold iterate
  obtain ⟨w, i, e, h1, h2, h3, h4⟩ := D.update (i := s.info) h.mode
  refine Succeeds.call e ?_
  simp only []
  have lens : ∀ {M}, AtStep cfg P M n rows { s with w := { s.w with w := w, status := .OK } } →
      AtStep cfg P M n rows { s with w := { s.w with w := w, status := .OK }, info := i } := fun h =>
    ⟨h.mode, rfl, h.wtime, h.time, h.step, ⟨h.lens.x, h.lens.nominals, h.lens.derX, h.lens.z, h.lens.previousZ⟩, h.rows, h.flags, h.values⟩
  by_cases hi : i.terminateSimulation = true
  · rw [if_pos hi]
    exact .ret (ht _ (lens (h.to h3)) h2 hi)
  · rw [if_neg hi, h1, if_neg (by simp)]
    exact hk _ _ _ (lens (h.to (h4 (by simpa using hi)))) ⟨h2, by simpa using hi⟩

/-- The beginning of the program. -/
theorem initial_succeeds (D : Drives api record cfg E C T J P) {fuel : Nat} (hf : 0 < fuel) {s : Sim F (Run F W V)} (h : AtStep cfg P E 0 [] s) :
    Succeeds (initial (watch api record) cfg fuel s) fun b s =>
      if b then AtStep cfg P C 0 [timeAfter cfg.h 0] s ∧ Goes J s
      else AtStep cfg P T 0 [] s ∧ J s.info ∧ s.info.terminateSimulation = true := by
  unfold initial
  refine iterate_succeeds D hf h ?_ fun s h1 h2 h3 => by rw [if_neg (by simp)]; exact ⟨h1, h2, h3⟩
  intro s _ _ h ht
  obtain ⟨w, e, hC⟩ := D.enterCT h.mode
  refine Succeeds.call e ?_
  have h := h.to hC
  simp only []
  have cont : ∀ s : Sim F (Run F W V), AtStep cfg P C 0 [] s → Goes J s →
      Succeeds (CALL s ((watch api record).record s.w) fun s _ => .ret (true, { s with step := 0 })) fun b s =>
      if b then AtStep cfg P C 0 [timeAfter cfg.h 0] s ∧ Goes J s
      else AtStep cfg P T 0 [] s ∧ J s.info ∧ s.info.terminateSimulation = true := by
    intro s h ht
    refine succeeds_record D h fun w h => .ret ?_
    rw [if_pos rfl]
    exact ⟨⟨h.mode, h.status, h.wtime, h.time, rfl, ⟨h.lens.x, h.lens.nominals, h.lens.derX, h.lens.z, h.lens.previousZ⟩, h.rows, h.flags, h.values⟩, ht⟩
  have states : ∀ s : Sim F (Run F W V), AtStep cfg P C 0 [] s → Goes J s →
      Succeeds (if cfg.nx > 0 then
        CALL s ((watch api record).getStates s.w s.x cfg.nx) fun s x =>
        CALL { s with x := x } ((watch api record).getNominals s.w s.nominals cfg.nx) fun s n =>
          CALL { s with nominals := n } ((watch api record).record s.w) fun s _ => .ret (true, { s with step := 0 })
      else CALL s ((watch api record).record s.w) fun s _ => .ret (true, { s with step := 0 })) fun b s =>
      if b then AtStep cfg P C 0 [timeAfter cfg.h 0] s ∧ Goes J s
      else AtStep cfg P T 0 [] s ∧ J s.info ∧ s.info.terminateSimulation = true := by
    intro s h ht
    split
    · next hx =>
      obtain ⟨w, l, e, hC, hl⟩ := D.getStates h.mode hx h.lens.x
      refine Succeeds.call e ?_
      obtain ⟨w', l', e', hC', hl'⟩ := D.getNominals hC hx h.lens.nominals
      refine Succeeds.call (s := { s with w := { s.w with w := w, status := .OK }, x := l }) e' ?_
      exact cont { s with w := { s.w with w := w', status := .OK }, x := l, nominals := l' }
        ⟨hC', rfl, h.wtime, h.time, h.step, ⟨hl, hl', h.lens.derX, h.lens.z, h.lens.previousZ⟩, h.rows, h.flags, h.values⟩ ht
    · exact cont s h ht
  split
  · next hz =>
    obtain ⟨w', l, e, hC', hl⟩ := D.getIndicators h.mode hz h.lens.previousZ
    refine Succeeds.call e ?_
    exact states _ ⟨hC', rfl, h.wtime, h.time, h.step, ⟨h.lens.x, h.lens.nominals, h.lens.derX, h.lens.z, hl⟩, h.rows, h.flags, h.values⟩ ht
  · exact states _ h ht

/-- The handling of events. -/
theorem handle_succeeds (D : Drives api record cfg E C T J P) {fuel : Nat} (hf : 0 < fuel) {Q : Bool → Sim F (Run F W V) → Prop} {n : Nat} {rows : List F}
    {s : Sim F (Run F W V)} (h : AtStep cfg P C n rows s) {k : Sim F (Run F W V) → Result F (Run F W V)}
    (hk : ∀ s, AtStep cfg P C n (rows ++ [timeAfter cfg.h n]) s → Goes J s → Succeeds (k s) Q)
    (ht : ∀ s, AtStep cfg P T n rows s → J s.info → s.info.terminateSimulation = true → Q false s) :
    Succeeds (handle (watch api record) cfg fuel s k) Q := by
  unfold handle
  obtain ⟨w, e, hE⟩ := D.enterEM h.mode
  refine Succeeds.call e ?_
  refine iterate_succeeds D hf (h.to hE) ?_ ht
  intro s nom val h hi
  obtain ⟨w, e, hC⟩ := D.enterCT h.mode
  refine Succeeds.call e ?_
  refine succeeds_record D (h.to hC) fun w h => ?_
  simp only []
  have nominals : ∀ s : Sim F (Run F W V), AtStep cfg P C n (rows ++ [timeAfter cfg.h n]) s → Goes J s →
      Succeeds (if (cfg.nx > 0 && nom) = true then
        CALL s ((watch api record).getNominals s.w s.nominals cfg.nx) fun s n => k { s with nominals := n }
      else k s) Q := by
    intro s h hi
    split
    · next hx =>
      simp only [Bool.and_eq_true, decide_eq_true_eq] at hx
      obtain ⟨w', l', e', hC', hl'⟩ := D.getNominals h.mode hx.1 h.lens.nominals
      refine Succeeds.call e' ?_
      exact hk _ ⟨hC', rfl, h.wtime, h.time, h.step, ⟨h.lens.x, hl', h.lens.derX, h.lens.z, h.lens.previousZ⟩, h.rows, h.flags, h.values⟩ hi
    · exact hk _ h hi
  split
  · next hx =>
    simp only [Bool.and_eq_true, decide_eq_true_eq] at hx
    obtain ⟨w', l', e', hC', hl'⟩ := D.getStates h.mode hx.1 h.lens.x
    refine Succeeds.call e' ?_
    exact nominals _ ⟨hC', rfl, h.wtime, h.time, h.step, ⟨hl', h.lens.nominals, h.lens.derX, h.lens.z, h.lens.previousZ⟩, h.rows, h.flags, h.values⟩ hi
  · exact nominals _ h hi

/-- The end of a pass. -/
theorem finish_succeeds (D : Drives api record cfg E C T J P) {n : Nat} {rows : List F} {s : Sim F (Run F W V)} (h : AtStep cfg P C n rows s)
    (hJ : J s.info) : Succeeds (finish (watch api record) cfg s) fun b s =>
      b = true ∧ AtStep cfg P C n (rows ++ [timeAfter cfg.h n]) s ∧ Goes J s := by
  unfold finish
  obtain ⟨w, e, hC⟩ := D.completed (a := s.stepEvent) (b := s.info.terminateSimulation) h.mode
  refine Succeeds.call e ?_
  simp only []
  rw [if_neg (by simp)]
  refine succeeds_record D (n := n) (rows := rows)
    ⟨hC, rfl, h.wtime, h.time, h.step, ⟨h.lens.x, h.lens.nominals, h.lens.derX, h.lens.z, h.lens.previousZ⟩, h.rows, ⟨rfl, h.flags.2⟩, h.values⟩
    fun w h => .ret ⟨rfl, h, D.info hJ, rfl⟩

theorem detect_succeeds (D : Drives api record cfg E C T J P) {n : Nat} {rows : List F} {s : Sim F (Run F W V)} (h : AtStep cfg P C n rows s)
    (hJ : J s.info) {occ : Bool} : Succeeds (detect (watch api record) cfg occ s) fun b s =>
      b = true ∧ AtStep cfg P C n (rows ++ [timeAfter cfg.h n]) s ∧ Goes J s := by
  unfold detect
  split
  · next hz =>
    simp only []
    split
    · obtain ⟨w', l, e, hC', hl⟩ := D.getIndicators h.mode hz h.lens.previousZ
      refine Succeeds.call (s := { s with stateEvent := false }) e ?_
      exact finish_succeeds D ⟨hC', rfl, h.wtime, h.time, h.step, ⟨h.lens.x, h.lens.nominals, h.lens.derX, h.lens.z, hl⟩, h.rows, ⟨h.flags.1, fun h => by omega⟩, h.values⟩ hJ
    · obtain ⟨w', l, e, hC', hl⟩ := D.getIndicators h.mode hz h.lens.z
      refine Succeeds.call (s := { s with stateEvent := false }) e ?_
      exact finish_succeeds D ⟨hC', rfl, h.wtime, h.time, h.step, ⟨h.lens.x, h.lens.nominals, h.lens.derX, hl, hl⟩, h.rows, ⟨h.flags.1, fun h => by omega⟩, h.values⟩ hJ
  · exact finish_succeeds D h hJ

theorem advance_succeeds (D : Drives api record cfg E C T J P) {n : Nat} (hn : n + 1 < 2 ^ 64) {rows : List F} {s : Sim F (Run F W V)}
    (h : AtStep cfg P C n rows s) (hJ : J s.info) {occ : Bool} :
    Succeeds (advance (watch api record) cfg occ s) fun b s =>
      b = true ∧ AtStep cfg P C (n + 1) (rows ++ [timeAfter cfg.h (n + 1)]) s ∧ Goes J s := by
  unfold advance
  simp only []
  have move : ∀ s : Sim F (Run F W V), AtStep cfg P C n rows s → J s.info →
      Succeeds (CALL { s with step := (s.step + 1) % 2 ^ 64, time := Arith.lit (((s.step + 1) % 2 ^ 64 : Nat) : Rat) *. cfg.h }
        ((watch api record).setTime s.w (Arith.lit (((s.step + 1) % 2 ^ 64 : Nat) : Rat) *. cfg.h)) fun s _ =>
      if cfg.nx > 0 then
        CALL { s with x := eulerUpdate cfg.h cfg.nx s.x s.derX } ((watch api record).setStates s.w (eulerUpdate cfg.h cfg.nx s.x s.derX) cfg.nx)
          fun s _ => detect (watch api record) cfg occ s
      else detect (watch api record) cfg occ s) fun b s =>
      b = true ∧ AtStep cfg P C (n + 1) (rows ++ [timeAfter cfg.h (n + 1)]) s ∧ Goes J s := by
    intro s h hJ
    rw [h.step, Nat.mod_eq_of_lt hn]
    have ht : timeAfter cfg.h (n + 1) = Arith.lit ((n + 1 : Nat) : Rat) *. cfg.h := by simp [timeAfter]
    rw [← ht]
    obtain ⟨w, e, hC⟩ := D.setTime (k := n + 1) h.mode
    refine succeeds_setTime (s := { s with step := n + 1, time := timeAfter cfg.h (n + 1) }) e ?_
    · simp only []
      split
      · next hx =>
        have hl : (eulerUpdate cfg.h cfg.nx s.x s.derX).length = cfg.nx := by rw [eulerUpdate_length]; exact h.lens.x
        obtain ⟨w', e', hC'⟩ := D.setStates hC hx hl
        refine Succeeds.call (s := { s with step := n + 1, time := timeAfter cfg.h (n + 1), w := ⟨w, .OK, timeAfter cfg.h (n + 1), s.w.rows⟩, x := eulerUpdate cfg.h cfg.nx s.x s.derX }) e' ?_
        exact detect_succeeds D (n := n + 1) (s := { s with step := n + 1, time := timeAfter cfg.h (n + 1), w := ⟨w', .OK, timeAfter cfg.h (n + 1), s.w.rows⟩, x := eulerUpdate cfg.h cfg.nx s.x s.derX })
          ⟨hC', rfl, rfl, rfl, rfl, ⟨hl, h.lens.nominals, h.lens.derX, h.lens.z, h.lens.previousZ⟩, h.rows, h.flags, h.values⟩ hJ
      · exact detect_succeeds D (n := n + 1) (s := { s with step := n + 1, time := timeAfter cfg.h (n + 1), w := ⟨w, .OK, timeAfter cfg.h (n + 1), s.w.rows⟩ })
          ⟨hC, rfl, rfl, rfl, rfl, ⟨h.lens.x, h.lens.nominals, h.lens.derX, h.lens.z, h.lens.previousZ⟩, h.rows, h.flags, h.values⟩ hJ
  refine succeeds_ite (fun hx => ?_) fun _ => move _ h hJ
  obtain ⟨w', l', e', hC', hl'⟩ := D.getDerivatives h.mode hx h.lens.derX
  refine Succeeds.call e' ?_
  exact move { s with w := { s.w with w := w', status := .OK }, derX := l' }
    ⟨hC', rfl, h.wtime, h.time, h.step, ⟨h.lens.x, h.lens.nominals, hl', h.lens.z, h.lens.previousZ⟩, h.rows, h.flags, h.values⟩ hJ

/-- The program is at the beginning of pass `k` through the loop. -/
structure AtPass (cfg : Config F) (P : List V → Prop) (C : W → Prop) (J : EventInfo F → Prop) (N k : Nat) (s : Sim F (Run F W V)) : Prop where
  rows : ∃ l, Covers (¬Eventless cfg J N) (timeAfter cfg.h) k l ∧ AtStep cfg P C k (l ++ [timeAfter cfg.h k]) s
  info : Goes J s

/-- The program has ended. -/
structure Ended (cfg : Config F) (P : List V → Prop) (T : W → Prop) (J : EventInfo F → Prop) (N : Nat) (s : Sim F (Run F W V)) : Prop where
  mode : T s.w.w
  status : s.w.status = .OK
  values : ∀ r ∈ s.w.rows, P r.values
  rows : ∃ k ≤ N + 1, Covers (¬Eventless cfg J N) (timeAfter cfg.h) k (s.w.rows.map Row.time) ∧
    (k = N + 1 ∨ J s.info ∧ s.info.terminateSimulation = true)

theorem pass_succeeds (D : Drives api record cfg E C T J P) {fuel : Nat} (hf : 0 < fuel) {N : Nat} (hN : N < 2 ^ 64)
    (hstop : ∀ k ≤ N, (cfg.stopTime <=. timeAfter cfg.h k) = decide (k = N)) {k : Nat} (hk : k ≤ N) {s : Sim F (Run F W V)}
    (h : AtPass cfg P C J N k s) :
    Succeeds (pass (watch api record) cfg fuel s) fun b s => if b then k < N ∧ AtPass cfg P C J N (k + 1) s else Ended cfg P T J N s := by
  unfold pass
  rw [h.info.2, if_neg (by simp)]
  simp only []
  obtain ⟨l, hl, hs⟩ := h.rows
  have rest : ∀ occ rows s, AtStep cfg P C k rows s → J s.info → Covers (¬Eventless cfg J N) (timeAfter cfg.h) (k + 1) rows →
      Succeeds (if cfg.stopTime <=. s.time then .ret (false, s) else advance (watch api record) cfg occ s) fun b s =>
        if b then k < N ∧ AtPass cfg P C J N (k + 1) s else Ended cfg P T J N s := by
    intro occ rows s hs hJ hr
    rw [hs.time, hstop k hk]
    by_cases hkN : k = N
    · rw [if_pos (by simpa using hkN)]
      refine .ret ?_
      rw [if_neg (by simp)]
      exact ⟨D.stop hs.mode, hs.status, hs.values, N + 1, Nat.le_refl _, by rw [hs.rows, ← hkN]; exact hkN ▸ hr, .inl rfl⟩
    · rw [if_neg (by simpa using hkN)]
      refine (advance_succeeds D (by omega) hs hJ).mono ?_
      rintro b s ⟨rfl, h1, h2⟩
      rw [if_pos rfl]
      exact ⟨by omega, ⟨rows, hr, h1⟩, h2⟩
  split
  · next ho =>
    have hcalm : ¬Eventless cfg J N := by
      intro hc
      have h1 := hc.info _ h.info.1
      have h2 := hs.flags
      have h3 := hc.finite k hk
      rw [← hs.time] at h3
      simp [eventOccurred, h1, h2.1, h2.2 hc.indicators, h3] at ho
    refine handle_succeeds D hf hs (fun s h1 h2 => rest _ _ s h1 h2.1 (by rw [List.append_assoc]; exact .twice hcalm hl)) fun s h1 h2 h3 => ?_
    rw [if_neg (by simp)]
    exact ⟨h1.mode, h1.status, h1.values, k + 1, by omega, by rw [h1.rows]; exact .once hl, .inr ⟨h2, h3⟩⟩
  · exact rest _ _ s hs h.info.1 (.once hl)

theorem passes_succeeds (D : Drives api record cfg E C T J P) {fuel : Nat} (hf : 0 < fuel) {N : Nat} (hN : N < 2 ^ 64)
    (hstop : ∀ k ≤ N, (cfg.stopTime <=. timeAfter cfg.h k) = decide (k = N)) {s : Sim F (Run F W V)} (h : AtPass cfg P C J N 0 s) (n : Nat) :
    Succeeds (passes (watch api record) cfg fuel n s) fun b s => if b then n ≤ N ∧ AtPass cfg P C J N n s else Ended cfg P T J N s := by
  induction n with
  | zero => exact .ret (by rw [if_pos rfl]; exact ⟨Nat.zero_le _, h⟩)
  | succ n ih =>
    obtain ⟨b, s1, e, ih⟩ := ih
    unfold passes
    rw [e]
    simp only [Outcome.ret_bind]
    cases b
    · exact .ret (by simpa using ih)
    · simp only [if_true] at ih ⊢
      exact pass_succeeds D hf hN hstop ih.1 ih.2

/-- The program ends. -/
theorem simulate_succeeds (D : Drives api record cfg E C T J P) {fuel : Nat} (hf : 0 < fuel) {N : Nat} (hN : N < 2 ^ 64)
    (hstop : ∀ k ≤ N, (cfg.stopTime <=. timeAfter cfg.h k) = decide (k = N)) {w : W} (h : E w) {n : Nat} (hn : N < n) :
    ∃ s, simulate (watch api record) cfg fuel n ⟨w, .OK, Arith.lit 0, []⟩ = .ret (false, s) ∧ Ended cfg P T J N s := by
  obtain ⟨b, s1, e, hi⟩ := initial_succeeds D hf (s := Sim.start cfg ⟨w, .OK, Arith.lit 0, []⟩)
    ⟨h, rfl, rfl, rfl, rfl, ⟨by simp [Sim.start], by simp [Sim.start], by simp [Sim.start], by simp [Sim.start], by simp [Sim.start]⟩, rfl, ⟨rfl, fun _ => rfl⟩, by simp [Sim.start]⟩
  unfold simulate
  rw [e]
  simp only [Outcome.ret_bind]
  cases b
  · obtain ⟨h1, h2, h3⟩ : _ ∧ _ ∧ _ := by simpa using hi
    exact ⟨s1, rfl, h1.mode, h1.status, h1.values, 0, by omega, by rw [h1.rows]; exact .zero, .inr ⟨h2, h3⟩⟩
  · simp only [if_true] at hi ⊢
    obtain ⟨b, s2, e2, h2⟩ := passes_succeeds D hf hN hstop ⟨⟨[], .zero, hi.1⟩, hi.2⟩ n
    cases b
    · exact ⟨s2, e2, by simpa using h2⟩
    · simp only [if_true] at h2
      omega

end
end Verif.Importer.Euler

/-! ## The lengths of vectors -/

namespace Verif
section
variable {F D : Type} [Arith F] [HasInf F] {m : Model F D} {p : Profile F D}

/-- The vector functions keep the length of the array. -/
structure Model.KeepsLength (m : Model F D) : Prop where
  states : ∀ ctx mv l n, l.length = n → (m.getContinuousStates ctx mv (some l) n).All fun x => ∃ l', x.2.2 = some l' ∧ l'.length = n
  nominals : ∀ ctx mv l n, l.length = n → (m.getNominals ctx mv (some l) n).All fun x => ∃ l', x.2.2 = some l' ∧ l'.length = n
  derivatives : ∀ ctx mv l n, l.length = n → (m.getDerivatives ctx mv (some l) n).All fun x => ∃ l', x.2.2 = some l' ∧ l'.length = n
  indicators : ∀ ctx mv l n, l.length = n → (m.getEventIndicators ctx mv (some l) n).All fun x => ∃ l', x.2.2 = some l' ∧ l'.length = n

theorem putVector_len {ctx : Ctx F} {mv mv' : MV F D} {l vs : List F} {n : Nat} (hl : l.length = n) :
    (putVector ctx mv mv' (some l) n vs).All fun x => ∃ l', x.2.2 = some l' ∧ l'.length = n := by
  rintro ⟨a, s, q⟩ e
  have := (VecS.put (ctx := ctx) (mv := mv) (mv' := mv') (p := some l) (vs := vs) (n := n) (.inr ⟨l, rfl, by omega⟩)).2 _ e
  simp only [Ptr.SameLen, Option.map_some] at this
  cases q with
  | none => simp at this
  | some l' => exact ⟨l', rfl, by simp at this; omega⟩

theorem vecStub_len {ctx : Ctx F} {mv : MV F D} {l : List F} {n : Nat} (hl : l.length = n) :
    (vecStub ctx mv (some l) n).All fun x => ∃ l', x.2.2 = some l' ∧ l'.length = n := by
  unfold vecStub assertSize
  split <;> exact Outcome.all_ret.2 ⟨l, rfl, hl⟩

theorem FMI2.Describes.keepsLength (h : FMI2.Describes m p) : m.KeepsLength := by
  cases h <;> exact ⟨fun _ _ _ _ h => by first | exact putVector_len h | exact vecStub_len h,
    fun _ _ _ _ h => by first | exact putVector_len h | exact vecStub_len h,
    fun _ _ _ _ h => by first | exact putVector_len h | exact vecStub_len h,
    fun _ _ _ _ h => by first | exact putVector_len h | exact vecStub_len h⟩

theorem FMI3.Describes.keepsLength (h : FMI3.Describes m p) : m.KeepsLength := by
  cases h <;> exact ⟨fun _ _ _ _ h => by first | exact putVector_len h | exact vecStub_len h,
    fun _ _ _ _ h => by first | exact putVector_len h | exact vecStub_len h,
    fun _ _ _ _ h => by first | exact putVector_len h | exact vecStub_len h,
    fun _ _ _ _ h => by first | exact putVector_len h | exact vecStub_len h⟩

theorem vec_len {al : Bool} {name : String} {c c' : Comp F D} {l : List F} {out : Ptr F} {n : Nat} {f : Ctx F → MV F D → MRes F D (Ptr F)}
    (hf : ∀ ctx mv, (f ctx mv).All fun x => ∃ l', x.2.2 = some l' ∧ l'.length = n)
    (h : beginFunction al name c (some l) (fun c => callLast (c.lift (f c.ctx c.mv)) id) = .ret (c', .OK, out)) :
    ∃ l', out = some l' ∧ l'.length = n := by
  unfold beginFunction at h
  split at h
  · unfold callLast call at h
    obtain ⟨⟨c1, s1, q⟩, e1, h⟩ := Outcome.bind_eq_ret.1 h
    obtain ⟨mv', e2, rfl⟩ := lift_eq_ret.1 e1
    have := hf _ _ _ e2
    simp only at h
    split at h <;> (try split at h) <;> cases h <;> exact this
  · cases h

end

/-! ## FMI 2.0 -/

namespace FMI2
section
variable {F D : Type} [Arith F] [HasInf F] {m : Model F D} {p : Profile F D} {c₀ : Comp F D}

/-- A Model Exchange instance in the mode, created as `c₀`. -/
structure Session (m : Model F D) (c₀ : Comp F D) (mode : Mode) (w : World F D) : Prop where
  reach : Reachable m .modelExchange w
  kept : WInv c₀.Kept w
  state : w.inst.ctx.state = mode

theorem Session.typ {mode : Mode} {w : World F D} (h : Session m c₀ mode w) (hc : c₀.ctx.typ = .modelExchange) :
    w.inst.ctx.typ = .modelExchange := h.kept.inst.1.1.trans hc

theorem Session.step (hm : Describes m p) (hc : c₀.ctx.typ = .modelExchange) (hn : p.needs c₀.ctx) {mode : Mode} {w : World F D}
    (h : Session m c₀ mode w) {op : Op F} (hX : op.fn ∉ [Fn.doStep, .setFMUstate]) (ho : op.fn = .newDiscreteStates → ¬p.over w.inst.mv.data)
    (hs : mode ∈ Spec.allowedIn op.fn) (ha : Args m p w op) (wf : WellFormed w op) :
    ∃ w' o, FMI2.step m 0 w op = .ret (w', .OK, o) ∧ Session m c₀ (Spec.nextMode op.fn .modelExchange mode) w' ∧
      (op.fn ≠ .newDiscreteStates → ¬p.over w.inst.mv.data → ¬p.over w'.inst.mv.data) := by
  have hok := hm.ref.eff.okOrError
  have hn' : p.needs w.inst.ctx := hm.needs_kept h.kept.inst.1.2.1 hn
  have hd : op.fn ≠ .doStep := fun e => hX (by simp [e])
  obtain ⟨⟨w', s, o⟩, e⟩ := legal_ret hm h.reach hd wf 0
  obtain rfl := (C61 hm hn' hd ho e).2 ⟨by rw [h.state]; exact hs, ha⟩
  refine ⟨w', o, e, ⟨h.reach.call hok e, step_inv hok (FMI2.kept m c₀) h.kept op _ e, ?_⟩, fun hu hp => hm.over_kept e (by
    simp only [List.mem_cons, List.not_mem_nil, or_false, not_or] at hX ⊢; exact ⟨hX.1, hu, hX.2⟩) hp⟩
  obtain ⟨-, h1 | ⟨-, -, h1⟩⟩ := step_mode' hok _ e
  · cases h1.1
  · simp only at h1
    rw [h1]
    unfold Spec.modeAfter
    split
    · exact absurd (by simp [Op.fn]) hX
    · rw [h.typ hc, h.state]

/-- In the mode, and the simulation is not over. -/
structure Ongoing (m : Model F D) (p : Profile F D) (c₀ : Comp F D) (mode : Mode) (w : World F D) : Prop extends Session m c₀ mode w where
  over : ¬p.over w.inst.mv.data

/-- FMUs other than Stair report no time events and never end the simulation. -/
def Endless (m : Model F D) (i : EventInfo F) : Prop := Timeless m → i.nextEventTimeDefined = false ∧ i.terminateSimulation = false

theorem drivesME (hm : Describes m p) (hc : c₀.ctx.typ = .modelExchange) (hn : p.needs c₀.ctx) {record : List (Op F)} (hr : ∀ op ∈ record, Gets m p op)
    {cfg : Importer.Euler.Config F} (hx : cfg.nx = 0 ∨ cfg.nx = m.maxNX) (hz : cfg.nz = 0 ∨ cfg.nz = m.maxNZ) :
    Importer.Euler.Drives (Importer.Euler.api2 m []) (Importer.CoSim.calls (FMI2.step m 0) record) cfg (Ongoing m p c₀ .eventMode) (Ongoing m p c₀ .continuousTimeMode)
      (fun w => ∃ w' v, FMI2.step m 0 w .terminate = .ret (w', .OK, v)) (Endless m) (fun _ => True) := by
  have hl := hm.lawful
  have hk := hm.keepsLength
  have step : ∀ {mode : Mode} {w : World F D} {op : Op F} (next : Mode), Ongoing m p c₀ mode w → op.fn ∉ [Fn.doStep, .newDiscreteStates, .setFMUstate] →
      mode ∈ Spec.allowedIn op.fn → Args m p w op → WellFormed w op → Spec.nextMode op.fn .modelExchange mode = next →
      ∃ w' o, FMI2.step m 0 w op = .ret (w', .OK, o) ∧ Ongoing m p c₀ next w' := by
    intro mode w op next h hX hs ha wf hnext
    simp only [List.mem_cons, List.not_mem_nil, or_false, not_or] at hX
    obtain ⟨w', o, e, k1, k2⟩ := h.toSession.step hm hc hn (by simpa using ⟨hX.1, hX.2.2⟩) (fun e => absurd e hX.2.1) hs ha wf
    exact ⟨w', o, e, hnext ▸ k1, k2 hX.2.1 h.over⟩
  have hasn : ∀ {l : List F} {n : Nat}, l.length = n → Ptr.Has (some l) n := fun h => .inr ⟨_, rfl, by omega⟩
  constructor
  case update =>
    intro w i h
    obtain ⟨w', o, e, k1, -⟩ := h.toSession.step hm hc hn (op := .newDiscreteStates (some i)) (by simp [Op.fn]) (fun _ => h.over)
      (by simp [Op.fn, Spec.allowedIn]) trivial (by simp [WellFormed])
    obtain ⟨i', rfl, hi⟩ := C50_no_second_iteration hm.ref h.reach e
    have key : i' = w'.inst.mv.eventInfo ∧ (w'.inst.mv.terminateSimulation = false → ¬p.over w'.inst.mv.data) := by
      obtain ⟨od, hon⟩ := hm.ongoing
      have hok := hm.ref.eff.okOrError
      simp only [FMI2.step, World.run, newDiscreteStates, begin, beginFunction] at e
      obtain ⟨⟨c1, s1, o1⟩, e2, e1⟩ := Outcome.bind_eq_ret.1 e
      cases e1
      split at e2
      · cases hnn : m.eventUpdate with
        | none => rw [hnn] at e2; cases e2; exact ⟨rfl, fun _ => h.over⟩
        | some eu =>
          rw [hnn] at e2
          simp only [call] at e2
          obtain ⟨⟨c2, s2, u⟩, e3, e2⟩ := Outcome.bind_eq_ret.1 e2
          obtain ⟨mv, e4, rfl⟩ := lift_eq_ret.1 e3
          rcases hok _ _ _ _ _ (.event hnn e4) with rfl | rfl
          · cases e2; exact ⟨rfl, hon.event _ hnn _ _ _ e4 rfl⟩
          · cases e2
      · cases e2
    refine ⟨w', i', by simp [Importer.Euler.api2, e], hi, ?_, ?_, fun ht => ⟨k1, ?_⟩⟩
    · intro ht
      rw [key.1]
      exact (k1.reach.mv hm.ref.eff.okOrError ht.inv ⟨rfl, rfl⟩).inst.symm
    · obtain ⟨w'', v, e, -⟩ := k1.step hm hc hn (op := .terminate) (by simp [Op.fn]) (by simp [Op.fn]) (by simp [Op.fn, Spec.allowedIn, Spec.nextMode]) trivial trivial
      exact ⟨w'', v, e⟩
    · rw [key.1] at ht; exact key.2 ht
  case enterCT =>
    intro w h
    obtain ⟨w', o, e, k⟩ := step (op := .enterContinuousTimeMode) .continuousTimeMode h (by simp [Op.fn]) (by simp [Op.fn, Spec.allowedIn]) trivial trivial rfl
    exact ⟨w', by simp [Importer.Euler.api2, e], k⟩
  case enterEM =>
    intro w h
    obtain ⟨w', o, e, k⟩ := step (op := .enterEventMode) .eventMode h (by simp [Op.fn]) (by simp [Op.fn, Spec.allowedIn]) trivial trivial rfl
    exact ⟨w', by simp [Importer.Euler.api2, e], k⟩
  case getStates =>
    intro w l h h0 hlen
    obtain ⟨w', o, e, k⟩ := step (op := .getContinuousStates (some l) cfg.nx) .continuousTimeMode h (by simp [Op.fn]) (by simp [Op.fn, Spec.allowedIn])
      ⟨(hx.resolve_left (by omega)).trans hl.maxNX, by simp⟩ (hasn hlen) rfl
    have e' := e
    simp only [FMI2.step, World.run] at e'
    obtain ⟨⟨c1, s1, o1⟩, e2, e1⟩ := Outcome.bind_eq_ret.1 e'
    cases e1
    obtain ⟨l', rfl, hl'⟩ := vec_len (f := fun ctx mv => m.getContinuousStates ctx mv (some l) cfg.nx) (fun ctx mv => hk.states ctx mv l _ hlen) e2
    exact ⟨_, l', by simp [Importer.Euler.api2, e], k, hl'⟩
  case getNominals =>
    intro w l h h0 hlen
    obtain ⟨w', o, e, k⟩ := step (op := .getNominals (some l) cfg.nx) .continuousTimeMode h (by simp [Op.fn]) (by simp [Op.fn, Spec.allowedIn])
      ⟨(hx.resolve_left (by omega)).trans hl.maxNX, by simp⟩ (hasn hlen) rfl
    have e' := e
    simp only [FMI2.step, World.run] at e'
    obtain ⟨⟨c1, s1, o1⟩, e2, e1⟩ := Outcome.bind_eq_ret.1 e'
    cases e1
    obtain ⟨l', rfl, hl'⟩ := vec_len (f := fun ctx mv => m.getNominals ctx mv (some l) cfg.nx) (fun ctx mv => hk.nominals ctx mv l _ hlen) e2
    exact ⟨_, l', by simp [Importer.Euler.api2, e], k, hl'⟩
  case getDerivatives =>
    intro w l h h0 hlen
    obtain ⟨w', o, e, k⟩ := step (op := .getDerivatives (some l) cfg.nx) .continuousTimeMode h (by simp [Op.fn]) (by simp [Op.fn, Spec.allowedIn])
      ⟨(hx.resolve_left (by omega)).trans hl.maxNX, by simp⟩ (hasn hlen) rfl
    have e' := e
    simp only [FMI2.step, World.run] at e'
    obtain ⟨⟨c1, s1, o1⟩, e2, e1⟩ := Outcome.bind_eq_ret.1 e'
    cases e1
    obtain ⟨l', rfl, hl'⟩ := vec_len (f := fun ctx mv => m.getDerivatives ctx mv (some l) cfg.nx) (fun ctx mv => hk.derivatives ctx mv l _ hlen) e2
    exact ⟨_, l', by simp [Importer.Euler.api2, e], k, hl'⟩
  case getIndicators =>
    intro w l h h0 hlen
    obtain ⟨w', o, e, k⟩ := step (op := .getEventIndicators (some l) cfg.nz) .continuousTimeMode h (by simp [Op.fn]) (by simp [Op.fn, Spec.allowedIn])
      ⟨(hz.resolve_left (by omega)).trans hl.maxNZ, by simp⟩ (hasn hlen) rfl
    have e' := e
    simp only [FMI2.step, World.run] at e'
    obtain ⟨⟨c1, s1, o1⟩, e2, e1⟩ := Outcome.bind_eq_ret.1 e'
    cases e1
    obtain ⟨l', rfl, hl'⟩ := vec_len (f := fun ctx mv => m.getEventIndicators ctx mv (some l) cfg.nz) (fun ctx mv => hk.indicators ctx mv l _ hlen) e2
    exact ⟨_, l', by simp [Importer.Euler.api2, e], k, hl'⟩
  case setStates =>
    intro w l h h0 hlen
    obtain ⟨w', o, e, k⟩ := step (op := .setContinuousStates (some l) cfg.nx) .continuousTimeMode h (by simp [Op.fn]) (by simp [Op.fn, Spec.allowedIn])
      ⟨(hx.resolve_left (by omega)).trans hl.maxNX, by simp⟩ (hasn hlen) rfl
    exact ⟨w', by simp [Importer.Euler.api2, e], k⟩
  case setTime =>
    intro w i h
    obtain ⟨w', o, e, k⟩ := step (op := .setTime (timeAfter cfg.h i)) .continuousTimeMode h (by simp [Op.fn]) (by simp [Op.fn, Spec.allowedIn]) trivial trivial rfl
    exact ⟨w', by simp [Importer.Euler.api2, e], k⟩
  case completed =>
    intro w a b h
    obtain ⟨w', o, e, k⟩ := step (op := .completedIntegratorStep (some a) (some b)) .continuousTimeMode h (by simp [Op.fn]) (by simp [Op.fn, Spec.allowedIn])
      (by simp [Args]) trivial rfl
    have e' := e
    simp only [FMI2.step, World.run, completedIntegratorStep, begin, beginFunction] at e'
    obtain ⟨⟨c1, s1, o1⟩, e2, e1⟩ := Outcome.bind_eq_ret.1 e'
    cases e1
    split at e2 <;> cases e2
    exact ⟨_, by simp [Importer.Euler.api2, e], k⟩
  case record =>
    intro w h
    obtain ⟨w', vs, h1, h2⟩ := AllOK.of_inv (call := FMI2.step m 0) (os := record) (Q := Ongoing m p c₀ .continuousTimeMode)
      (fun op hop w h => by
        obtain ⟨hf, ha⟩ := hr op hop
        simp only [List.mem_cons, List.not_mem_nil, or_false] at hf
        rcases hf with hf | hf | hf | hf <;>
          exact step .continuousTimeMode h (by simp [hf]) (by simp [hf, Spec.allowedIn]) (ha w).1 (ha w).2 (by rw [hf]; rfl)) h
    exact ⟨w', vs, h1.calls, h2, trivial⟩
  case info => exact fun h ht => ⟨(h ht).1, rfl⟩
  case stop =>
    intro w h
    obtain ⟨w', o, e, k⟩ := step (op := .terminate) .terminated h (by simp [Op.fn]) (by simp [Op.fn, Spec.allowedIn]) trivial trivial rfl
    exact ⟨w', o, e⟩

theorem setTimeME (hm : Describes m p) (hc : c₀.ctx.typ = .modelExchange) (hn : p.needs c₀.ctx) {w : World F D} {t : F}
    (h : Ongoing m p c₀ .continuousTimeMode w) :
    ∃ w', (Importer.Euler.api2 m []).setTime w t = .ret (w', .OK, ()) ∧ Ongoing m p c₀ .continuousTimeMode w' := by
  obtain ⟨w', o, e, k1, k2⟩ := h.toSession.step hm hc hn (op := .setTime t) (by simp [Op.fn]) (by simp [Op.fn])
    (by simp [Op.fn, Spec.allowedIn]) trivial trivial
  exact ⟨w', by simp [Importer.Euler.api2, e], k1, k2 (by simp [Op.fn]) h.over⟩

theorem createdME (hm : Describes m p) (resource : Ptr UInt8) :
    ∃ c l, instantiate m (some "instance1") .modelExchange (some m.token) resource (some true) false true = (some c, l) := by
  unfold instantiate
  simp only []
  cases hm <;> exact ⟨_, _, rfl⟩

theorem startedME (hm : Describes m p) {resource : Ptr UInt8} {l} {c : Comp F D}
    (hc : instantiate m (some "instance1") .modelExchange (some m.token) resource (some true) false true = (some c, l))
    (hn : p.needs c.ctx) {stop : F} :
    ∃ w vs, AllOK (FMI2.step m 0) (.fresh c) [.setupExperiment (Arith.lit 0) true stop, .enterInitializationMode,
      .exitInitializationMode] w vs ∧ Ongoing m p c .eventMode w := by
  have hc' : createModelInstance m false true false (some "instance1") (some m.token) resource false true .modelExchange = (some c, l) := hc
  have ht := (createModelInstance_ctx hc').1
  have ha : Session m c .instantiated (.fresh c) := ⟨⟨_, _, _, _, _, _, c, l, _, 0, [], [], hc, ⟨rfl, fun _ => rfl, fun _ _ e => by cases e⟩, rfl⟩,
    WInv.fresh ⟨⟨rfl, rfl, rfl, rfl, rfl⟩, rfl, rfl⟩, (createModelInstance_ctx hc').2.1⟩
  have hov : ¬p.over (World.fresh c).inst.mv.data := by
    change ¬p.over c.mv.data
    rw [createModelInstance_mv hc']
    cases hm
    case stair => exact fun h => absurd h (by change ¬((10 : Int) ≤ 1); decide)
    all_goals exact fun h => h
  obtain ⟨w₂, o₂, e₂, a₂, k₂⟩ := ha.step hm ht hn (op := .setupExperiment (Arith.lit 0) true stop) (by simp [Op.fn]) (by simp [Op.fn])
    (by simp [Op.fn, Spec.allowedIn]) trivial trivial
  obtain ⟨w₃, o₃, e₃, a₃, k₃⟩ := a₂.step hm ht hn (op := .enterInitializationMode) (by simp [Op.fn]) (by simp [Op.fn])
    (by simp [Op.fn, Spec.allowedIn, Spec.nextMode]) trivial trivial
  obtain ⟨w₄, o₄, e₄, a₄, k₄⟩ := a₃.step hm ht hn (op := .exitInitializationMode) (by simp [Op.fn]) (by simp [Op.fn])
    (by simp [Op.fn, Spec.allowedIn, Spec.nextMode]) trivial trivial
  exact ⟨w₄, _, .cons e₂ (.cons e₃ (.cons e₄ .nil)), a₄, k₄ (by simp [Op.fn]) (k₃ (by simp [Op.fn]) (k₂ (by simp [Op.fn]) hov))⟩

end
end FMI2

/-! ## FMI 3.0 -/

namespace FMI3
section
variable {F D : Type} [Arith F] [HasInf F] {m : Model F D} {p : Profile F D} {c₀ : Comp F D}

/-- A Model Exchange instance in the mode, created as `c₀`. -/
structure Session (m : Model F D) (c₀ : Comp F D) (mode : Mode) (w : World F D) : Prop where
  reach : Reachable m .modelExchange w
  kept : WInv c₀.Kept w
  state : w.inst.ctx.state = mode

theorem Session.typ {mode : Mode} {w : World F D} (h : Session m c₀ mode w) (hc : c₀.ctx.typ = .modelExchange) :
    w.inst.ctx.typ = .modelExchange := h.kept.inst.1.1.trans hc

theorem Session.step (hm : Describes m p) (hc : c₀.ctx.typ = .modelExchange) (hn : p.needs c₀.ctx) {mode : Mode} {w : World F D}
    (h : Session m c₀ mode w) {op : Op F} (hX : op.fn ∉ [Fn.doStep, .setFMUState, .activateModelPartition])
    (ho : op.fn = .updateDiscreteStates → ¬p.over w.inst.mv.data)
    (hs : mode ∈ Spec.allowedIn op.fn) (ha : Args m p w op) (wf : WellFormed w op) :
    ∃ w' o, FMI3.step m 0 w op = .ret (w', .OK, o) ∧ Session m c₀ (Spec.nextMode op.fn .modelExchange c₀.eventModeUsed mode) w' ∧
      (op.fn ≠ .updateDiscreteStates → ¬p.over w.inst.mv.data → ¬p.over w'.inst.mv.data) := by
  have hok := hm.ref.eff.okOrError
  have hn' : p.needs w.inst.ctx := hm.needs_kept h.kept.inst.1.2.1 hn
  simp only [List.mem_cons, List.not_mem_nil, or_false, not_or] at hX
  obtain ⟨⟨w', s, o⟩, e⟩ := legal_ret hm h.reach hn' hX.1 wf ha.enough hX.2.2 ho 0
  obtain rfl := (C61_partial hm hn' hX.1 ho e).2 ⟨by rw [h.state]; exact hs, ha⟩
  refine ⟨w', o, e, ⟨h.reach.call hok e, step_inv hok (FMI3.kept m c₀) h.kept op _ e, ?_⟩, fun hu hp => hm.over_kept e (by
    simp only [List.mem_cons, List.not_mem_nil, or_false, not_or]; exact ⟨hX.1, hu, hX.2.1⟩) hp⟩
  obtain ⟨-, h1 | ⟨-, -, h1⟩ | ⟨-, h1, -⟩⟩ := step_mode' hok _ e
  · cases h1.1
  · simp only at h1
    rw [h1]
    unfold Spec.modeAfter
    split
    · exact absurd rfl hX.2.1
    · rw [h.typ hc, h.state, h.kept.inst.2.2]
  · cases h1

/-- In the mode, and the simulation is not over. -/
structure Ongoing (m : Model F D) (p : Profile F D) (c₀ : Comp F D) (mode : Mode) (w : World F D) : Prop extends Session m c₀ mode w where
  over : ¬p.over w.inst.mv.data

/-- FMUs other than Stair report no time events and never end the simulation. -/
def Endless (m : Model F D) (i : EventInfo F) : Prop := Timeless m → i.nextEventTimeDefined = false ∧ i.terminateSimulation = false

theorem drivesME (hm : Describes m p) (hc : c₀.ctx.typ = .modelExchange) (hn : p.needs c₀.ctx) {record : List (Op F)} (hr : ∀ op ∈ record, Gets m p op)
    {cfg : Importer.Euler.Config F} (hx : cfg.nx = 0 ∨ cfg.nx = m.maxNX) (hz : cfg.nz = 0 ∨ cfg.nz = m.maxNZ) :
    Importer.Euler.Drives (Importer.Euler.api3 m []) (Importer.CoSim.calls (FMI3.step m 0) record) cfg (Ongoing m p c₀ .eventMode) (Ongoing m p c₀ .continuousTimeMode)
      (fun w => ∃ w' v, FMI3.step m 0 w .terminate = .ret (w', .OK, v)) (Endless m) (fun _ => True) := by
  have hl := hm.lawful
  have hk := hm.keepsLength
  have step : ∀ {mode : Mode} {w : World F D} {op : Op F} (next : Mode), Ongoing m p c₀ mode w → op.fn ∉ [Fn.doStep, .updateDiscreteStates, .setFMUState, .activateModelPartition] →
      mode ∈ Spec.allowedIn op.fn → Args m p w op → WellFormed w op → Spec.nextMode op.fn .modelExchange c₀.eventModeUsed mode = next →
      ∃ w' o, FMI3.step m 0 w op = .ret (w', .OK, o) ∧ Ongoing m p c₀ next w' := by
    intro mode w op next h hX hs ha wf hnext
    simp only [List.mem_cons, List.not_mem_nil, or_false, not_or] at hX
    obtain ⟨w', o, e, k1, k2⟩ := h.toSession.step hm hc hn (by simpa using ⟨hX.1, hX.2.2.1, hX.2.2.2⟩) (fun e => absurd e hX.2.1) hs ha wf
    exact ⟨w', o, e, hnext ▸ k1, k2 hX.2.1 h.over⟩
  have hasn : ∀ {l : List F} {n : Nat}, l.length = n → Ptr.Has (some l) n := fun h => .inr ⟨_, rfl, by omega⟩
  constructor
  case update =>
    intro w i h
    obtain ⟨w', o, e, k1, -⟩ := h.toSession.step hm hc hn (op := .updateDiscreteStates ⟨some i.newDiscreteStatesNeeded, some i.terminateSimulation, some i.nominalsChanged, some i.valuesChanged, some i.nextEventTimeDefined, some i.nextEventTime⟩) (by simp [Op.fn]) (fun _ => h.over)
      (by simp [Op.fn, Spec.allowedIn, Spec.anyMode]) trivial (by simp [WellFormed])
    obtain ⟨i', rfl, hi⟩ := C50_no_second_iteration hm.ref h.reach e
    have key : i' = fillEventOut w'.inst.mv ⟨some i.newDiscreteStatesNeeded, some i.terminateSimulation, some i.nominalsChanged, some i.valuesChanged, some i.nextEventTimeDefined, some i.nextEventTime⟩ ∧ (w'.inst.mv.terminateSimulation = false → ¬p.over w'.inst.mv.data) := by
      obtain ⟨od, hon⟩ := hm.ongoing
      have hok := hm.ref.eff.okOrError
      simp only [FMI3.step, World.run, updateDiscreteStates, begin, beginFunction] at e
      obtain ⟨⟨c1, s1, o1⟩, e2, e1⟩ := Outcome.bind_eq_ret.1 e
      cases e1
      split at e2
      · cases hnn : m.eventUpdate with
        | none => rw [hnn] at e2; cases e2; exact ⟨rfl, fun _ => h.over⟩
        | some eu =>
          rw [hnn] at e2
          simp only [call] at e2
          obtain ⟨⟨c2, s2, u⟩, e3, e2⟩ := Outcome.bind_eq_ret.1 e2
          obtain ⟨mv, e4, rfl⟩ := lift_eq_ret.1 e3
          rcases hok _ _ _ _ _ (.event hnn e4) with rfl | rfl
          · cases e2; exact ⟨rfl, hon.event _ hnn _ _ _ e4 rfl⟩
          · cases e2
      · cases e2
    obtain ⟨rfl, k2⟩ := key
    refine ⟨w', w'.inst.mv.eventInfo, by simp only [Importer.Euler.api3, e, Outcome.ret_bind]; rfl, by simpa [fillEventOut, MV.eventInfo] using hi, ?_, ?_, fun ht => ⟨k1, ?_⟩⟩
    · intro ht
      exact (k1.reach.mv hm.ref.eff.okOrError ht.inv ⟨rfl, rfl⟩).inst.symm
    · obtain ⟨w'', v, e, -⟩ := k1.step hm hc hn (op := .terminate) (by simp [Op.fn]) (by simp [Op.fn]) (by simp [Op.fn, Spec.allowedIn, Spec.nextMode]) trivial trivial
      exact ⟨w'', v, e⟩
    · exact k2 ht
  case enterCT =>
    intro w h
    obtain ⟨w', o, e, k⟩ := step (op := .enterContinuousTimeMode) .continuousTimeMode h (by simp [Op.fn]) (by simp [Op.fn, Spec.allowedIn]) trivial trivial rfl
    exact ⟨w', by simp [Importer.Euler.api3, e], k⟩
  case enterEM =>
    intro w h
    obtain ⟨w', o, e, k⟩ := step (op := .enterEventMode) .eventMode h (by simp [Op.fn]) (by simp [Op.fn, Spec.allowedIn]) trivial trivial rfl
    exact ⟨w', by simp [Importer.Euler.api3, e], k⟩
  case getStates =>
    intro w l h h0 hlen
    obtain ⟨w', o, e, k⟩ := step (op := .getContinuousStates (some l) cfg.nx) .continuousTimeMode h (by simp [Op.fn]) (by simp [Op.fn, Spec.allowedIn])
      ⟨(hx.resolve_left (by omega)).trans hl.maxNX, by simp⟩ (hasn hlen) rfl
    have e' := e
    simp only [FMI3.step, World.run] at e'
    obtain ⟨⟨c1, s1, o1⟩, e2, e1⟩ := Outcome.bind_eq_ret.1 e'
    cases e1
    obtain ⟨l', rfl, hl'⟩ := vec_len (f := fun ctx mv => m.getContinuousStates ctx mv (some l) cfg.nx) (fun ctx mv => hk.states ctx mv l _ hlen) e2
    exact ⟨_, l', by simp [Importer.Euler.api3, e], k, hl'⟩
  case getNominals =>
    intro w l h h0 hlen
    obtain ⟨w', o, e, k⟩ := step (op := .getNominals (some l) cfg.nx) .continuousTimeMode h (by simp [Op.fn]) (by simp [Op.fn, Spec.allowedIn])
      ⟨(hx.resolve_left (by omega)).trans hl.maxNX, by simp⟩ (hasn hlen) rfl
    have e' := e
    simp only [FMI3.step, World.run] at e'
    obtain ⟨⟨c1, s1, o1⟩, e2, e1⟩ := Outcome.bind_eq_ret.1 e'
    cases e1
    obtain ⟨l', rfl, hl'⟩ := vec_len (f := fun ctx mv => m.getNominals ctx mv (some l) cfg.nx) (fun ctx mv => hk.nominals ctx mv l _ hlen) e2
    exact ⟨_, l', by simp [Importer.Euler.api3, e], k, hl'⟩
  case getDerivatives =>
    intro w l h h0 hlen
    obtain ⟨w', o, e, k⟩ := step (op := .getDerivatives (some l) cfg.nx) .continuousTimeMode h (by simp [Op.fn]) (by simp [Op.fn, Spec.allowedIn])
      ⟨(hx.resolve_left (by omega)).trans hl.maxNX, by simp⟩ (hasn hlen) rfl
    have e' := e
    simp only [FMI3.step, World.run] at e'
    obtain ⟨⟨c1, s1, o1⟩, e2, e1⟩ := Outcome.bind_eq_ret.1 e'
    cases e1
    obtain ⟨l', rfl, hl'⟩ := vec_len (f := fun ctx mv => m.getDerivatives ctx mv (some l) cfg.nx) (fun ctx mv => hk.derivatives ctx mv l _ hlen) e2
    exact ⟨_, l', by simp [Importer.Euler.api3, e], k, hl'⟩
  case getIndicators =>
    intro w l h h0 hlen
    obtain ⟨w', o, e, k⟩ := step (op := .getEventIndicators (some l) cfg.nz) .continuousTimeMode h (by simp [Op.fn]) (by simp [Op.fn, Spec.allowedIn])
      ⟨(hz.resolve_left (by omega)).trans hl.maxNZ, by simp⟩ (hasn hlen) rfl
    have e' := e
    simp only [FMI3.step, World.run] at e'
    obtain ⟨⟨c1, s1, o1⟩, e2, e1⟩ := Outcome.bind_eq_ret.1 e'
    cases e1
    obtain ⟨l', rfl, hl'⟩ := vec_len (f := fun ctx mv => m.getEventIndicators ctx mv (some l) cfg.nz) (fun ctx mv => hk.indicators ctx mv l _ hlen) e2
    exact ⟨_, l', by simp [Importer.Euler.api3, e], k, hl'⟩
  case setStates =>
    intro w l h h0 hlen
    obtain ⟨w', o, e, k⟩ := step (op := .setContinuousStates (some l) cfg.nx) .continuousTimeMode h (by simp [Op.fn]) (by simp [Op.fn, Spec.allowedIn])
      ⟨(hx.resolve_left (by omega)).trans hl.maxNX, by simp⟩ (hasn hlen) rfl
    exact ⟨w', by simp [Importer.Euler.api3, e], k⟩
  case setTime =>
    intro w i h
    obtain ⟨w', o, e, k⟩ := step (op := .setTime (timeAfter cfg.h i)) .continuousTimeMode h (by simp [Op.fn]) (by simp [Op.fn, Spec.allowedIn]) trivial trivial rfl
    exact ⟨w', by simp [Importer.Euler.api3, e], k⟩
  case completed =>
    intro w a b h
    obtain ⟨w', o, e, k⟩ := step (op := .completedIntegratorStep (some a) (some b)) .continuousTimeMode h (by simp [Op.fn]) (by simp [Op.fn, Spec.allowedIn])
      (by simp [Args]) trivial rfl
    have e' := e
    simp only [FMI3.step, World.run, completedIntegratorStep, begin, beginFunction] at e'
    obtain ⟨⟨c1, s1, o1⟩, e2, e1⟩ := Outcome.bind_eq_ret.1 e'
    cases e1
    split at e2 <;> cases e2
    exact ⟨_, by simp [Importer.Euler.api3, e], k⟩
  case record =>
    intro w h
    obtain ⟨w', vs, h1, h2⟩ := AllOK.of_inv (call := FMI3.step m 0) (os := record) (Q := Ongoing m p c₀ .continuousTimeMode)
      (fun op hop w h => by
        obtain ⟨hf, ha⟩ := hr op hop
        obtain ⟨t, hf⟩ := hf
        exact step .continuousTimeMode h (by simp [hf]) (by rw [hf]; cases t <;> decide) (ha w).1 (ha w).2 (by rw [hf]; rfl)) h
    exact ⟨w', vs, h1.calls, h2, trivial⟩
  case info => exact fun h ht => ⟨(h ht).1, rfl⟩
  case stop =>
    intro w h
    obtain ⟨w', o, e, k⟩ := step (op := .terminate) .terminated h (by simp [Op.fn]) (by simp [Op.fn, Spec.allowedIn]) trivial trivial rfl
    exact ⟨w', o, e⟩

theorem setTimeME (hm : Describes m p) (hc : c₀.ctx.typ = .modelExchange) (hn : p.needs c₀.ctx) {w : World F D} {t : F}
    (h : Ongoing m p c₀ .continuousTimeMode w) :
    ∃ w', (Importer.Euler.api3 m []).setTime w t = .ret (w', .OK, ()) ∧ Ongoing m p c₀ .continuousTimeMode w' := by
  obtain ⟨w', o, e, k1, k2⟩ := h.toSession.step hm hc hn (op := .setTime t) (by simp [Op.fn]) (by simp [Op.fn])
    (by simp [Op.fn, Spec.allowedIn]) trivial trivial
  exact ⟨w', by simp [Importer.Euler.api3, e], k1, k2 (by simp [Op.fn]) h.over⟩

theorem createdME (hm : Describes m p) (hme : m.modelExchange = true) (resource : Ptr UInt8) :
    ∃ c l, instantiateModelExchange m (some "instance1") (some m.token) resource false true true = (some c, l) := by
  unfold instantiateModelExchange
  cases hm <;> first | exact ⟨_, _, rfl⟩ | cases hme

theorem startedME (hm : Describes m p) {resource : Ptr UInt8} {l} {c : Comp F D}
    (hc : instantiateModelExchange m (some "instance1") (some m.token) resource false true true = (some c, l))
    (hn : p.needs c.ctx) {stop : F} :
    c.ctx.typ = .modelExchange ∧ ∃ w vs, AllOK (FMI3.step m 0) (.fresh c) [.enterInitializationMode (Arith.lit 0) true stop,
      .exitInitializationMode] w vs ∧ Ongoing m p c .eventMode w := by
  have hprops : ¬p.over c.mv.data ∧ c.ctx.typ = .modelExchange ∧ c.ctx.state = .instantiated := by
    cases hm
    case stair => cases hc; exact ⟨fun h => absurd h (by change ¬((10 : Int) ≤ 1); decide), rfl, rfl⟩
    case clocks => cases hc
    all_goals cases hc; exact ⟨fun h => h, rfl, rfl⟩
  obtain ⟨hov, ht, hst⟩ := hprops
  have ha : Session m c .instantiated (.fresh c) := ⟨⟨c, _, 0, [], [], .me hc, ⟨rfl, fun _ => rfl, fun _ _ e => by cases e⟩, rfl⟩,
    WInv.fresh ⟨⟨rfl, rfl, rfl, rfl, rfl⟩, rfl, rfl⟩, hst⟩
  obtain ⟨w₂, o₂, e₂, a₂, k₂⟩ := ha.step hm ht hn (op := .enterInitializationMode (Arith.lit 0) true stop) (by simp [Op.fn]) (by simp [Op.fn])
    (by simp [Op.fn, Spec.allowedIn]) trivial trivial
  obtain ⟨w₄, o₄, e₄, a₄, k₄⟩ := a₂.step hm ht hn (op := .exitInitializationMode) (by simp [Op.fn]) (by simp [Op.fn])
    (by simp [Op.fn, Spec.allowedIn, Spec.nextMode]) trivial trivial
  exact ⟨ht, w₄, _, .cons e₂ (.cons e₄ .nil), a₄, k₄ (by simp [Op.fn]) (k₂ (by simp [Op.fn]) hov)⟩

end
end FMI3
end Verif
