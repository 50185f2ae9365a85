import Verif.Spec.Protocol
import Verif.Lemmas.Hoare

/-!
# The calls of the importers for Model Exchange

`Ready` relates the variables of the program at the beginning of a pass to what is known from the dialogue; `pass_good`: a pass
keeps it, and every call on the way is right.
-/

set_option linter.unusedSectionVars false

namespace Verif.Importer.Euler
open Verif
variable {F β : Type} [Arith F] [HasInf F] {strict : Bool} {cfg : Config F} {fmu : FMU F}

theorem seen_say (d : Dialogue F) (c : Call F) (a : Answer F) :
    seen strict cfg (d ++ [(c, a)]) = (seen strict cfg d).add strict cfg (c, a) := by
  simp [seen, List.foldl_append]

theorem Obeys.say {d : Dialogue F} {c : Call F} {a : Answer F} (h : Obeys strict cfg d) (hc : Correct cfg (seen strict cfg d) c) :
    Obeys strict cfg (d ++ [(c, a)]) := by
  intro before c' a' after e
  rcases List.eq_nil_or_concat after with rfl | ⟨l, x, rfl⟩
  · obtain ⟨rfl, e'⟩ := List.append_inj' e rfl
    simp only [List.cons.injEq, Prod.mk.injEq, and_true] at e'
    rw [← e'.1]
    exact hc
  · have e' : d ++ [(c, a)] = (before ++ (c', a') :: l) ++ [x] := by simpa using e
    obtain ⟨rfl, -⟩ := List.append_inj' e' rfl
    exact h before c' a' l rfl

theorem Obeys.nil : Obeys strict cfg ([] : Dialogue F) := by
  intro before c a after e
  simp at e

theorem eulerUpdate_map (h : F) (y d : Nat → F) (l : List Nat) :
    eulerUpdate h l.length (l.map y) (l.map d) = l.map fun i => y i +. h *. d i := by
  induction l with
  | nil => rfl
  | cons i l ih => simp [eulerUpdate, ih]

theorem eulerUpdate_range (h : F) (y d : Nat → F) (n : Nat) :
    eulerUpdate h n ((List.range n).map y) ((List.range n).map d) = (List.range n).map fun i => y i +. h *. d i := by
  simpa using eulerUpdate_map h y d (List.range n)

theorem zeroCrossing_map (z z' : Nat → F) (l : List Nat) :
    zeroCrossing l.length (l.map z) (l.map z') = true ↔
      ∃ i ∈ l, ((z i <=. Arith.lit 0) = true ∧ (Arith.lit 0 <. z' i) = true) ∨
        ((Arith.lit 0 <. z i) = true ∧ (z' i <=. Arith.lit 0) = true) := by
  induction l with
  | nil => simp [zeroCrossing]
  | cons i l ih => simp [zeroCrossing, ih]

theorem zeroCrossing_range (z z' : Nat → F) (n : Nat) :
    zeroCrossing n ((List.range n).map z) ((List.range n).map z') = true ↔ Crosses n z z' := by
  have := zeroCrossing_map z z' (List.range n)
  simpa [Crosses] using this

theorem map_getD (f : Nat → F) (n : Nat) (a : F) :
    ((List.range n).map fun i => ((List.range n).map f).getD i a) = (List.range n).map f := by
  apply List.map_congr_left
  intro i hi
  simp [List.mem_range.1 hi]

/-- The variables of the program agree with the dialogue. `known`: the initial values have been read. `nom`, `val`: the nominal
values or the states have to be read again. -/
structure Agrees (cfg : Config F) (known : Prop) (nom val : Bool) (s : Sim F (Dialogue F)) (q : Seen F) : Prop where
  failed : q.failed = false
  time : q.time = s.time
  steps : q.steps % 2 ^ 64 = s.step
  moved : q.moved = false
  stepping : q.stepping = false
  terminate : q.terminate = s.info.terminateSimulation
  next : q.nextEvent = if s.info.nextEventTimeDefined then some s.info.nextEventTime else none
  indicators : known → 0 < cfg.nz → ∃ z, q.indicators = some z ∧ s.previousZ = (List.range cfg.nz).map z
  states : known → 0 < cfg.nx → val = false → ∃ y, q.states = some y ∧ s.x = (List.range cfg.nx).map y
  nominals : known → 0 < cfg.nx → nom = false → q.nominals = true

/-- The beginning of a pass. -/
structure Ready (cfg : Config F) (s : Sim F (Dialogue F)) (q : Seen F) : Prop extends Agrees cfg True false false s q where
  phase : q.phase = .continuous
  recorded : q.recorded = true
  due : q.due = true → eventOccurred s = true

/-- The end of a pass. -/
def Good (strict : Bool) (cfg : Config F) (r : Bool × Sim F (Dialogue F)) : Prop :=
  Obeys strict cfg r.2.w ∧ (r.1 = true → Ready cfg r.2 (seen strict cfg r.2.w)) ∧
    (r.1 = false → (seen strict cfg r.2.w).Over cfg)

theorem CALL_good {s : Sim F (Dialogue F)} {k : Sim F (Dialogue F) → β → Result F (Dialogue F)} {c : Call F} {v : β}
    {r : Outcome (Dialogue F × Status × β)} (hr : r = .ret (s.w ++ [(c, fmu s.w c)], (fmu s.w c).status, v))
    (hw : Obeys strict cfg s.w) (hc : Correct cfg (seen strict cfg s.w) c)
    (hk : ∀ w, Obeys strict cfg w → seen strict cfg w = (seen strict cfg s.w).told strict cfg c (fmu s.w c) →
      (k { s with w := w } v).All (Good strict cfg)) :
    (CALL s r k).All (Good strict cfg) := by
  subst hr
  unfold CALL
  rw [Outcome.ret_bind]
  dsimp only
  split
  · next hs => exact hk _ (hw.say hc) (by rw [seen_say, Seen.add]; simp [hs])
  · next hs =>
    refine Outcome.all_ret.2 ⟨hw.say hc, fun h => (Bool.false_ne_true h).elim, fun _ => .inl ?_⟩
    show (seen strict cfg (s.w ++ [(c, fmu s.w c)])).failed = true
    rw [seen_say, Seen.add]
    simp [hs]

theorem iterate_good {known : Prop} {J : Seen F → Prop} (hJ : ∀ q a, J q → J (q.told strict cfg .update a)) {k : Sim F (Dialogue F) → Bool → Bool → Result F (Dialogue F)}
    (hk : ∀ s nom val, Obeys strict cfg s.w → Agrees cfg known nom val s (seen strict cfg s.w) →
      (seen strict cfg s.w).phase = .event true → (seen strict cfg s.w).due = false →
      J (seen strict cfg s.w) → s.info.terminateSimulation = false →
      (k s nom val).All (Good strict cfg)) :
    ∀ fuel (s : Sim F (Dialogue F)) nom val, Obeys strict cfg s.w → Agrees cfg known nom val s (seen strict cfg s.w) →
      (∃ b, (seen strict cfg s.w).phase = .event b) → (seen strict cfg s.w).due = false →
      J (seen strict cfg s.w) → s.info.terminateSimulation = false →
      (iterate fmu.api k fuel s nom val).All (Good strict cfg) := by
  intro fuel
  induction fuel with
  | zero => intros; exact Outcome.all_hang.2 trivial
  | succ fuel ih =>
    intro s nom val hw ha hp hd hae ht
    unfold iterate
    refine CALL_good (c := .update) rfl hw ⟨ha.failed, ?_, hp⟩ ?_
    · intro h
      rw [ha.terminate, ht] at h
      cases h
    · intro w hw' e
      generalize fmu s.w .update = a at e
      have ha' : Agrees cfg known (nom || a.info.nominalsChanged) (val || a.info.valuesChanged)
          { s with w := w, info := a.info } (seen strict cfg w) := by
        rw [e]
        refine ⟨ha.failed, ha.time, ha.steps, ha.moved, ha.stepping, rfl, rfl, ha.indicators, ?_, ?_⟩
        · intro hkn hx hv
          simp only [Bool.or_eq_false_iff] at hv
          obtain ⟨y, h1, h2⟩ := ha.states hkn hx hv.1
          exact ⟨y, by simp [Seen.told, hv.2, h1], h2⟩
        · intro hkn hx hv
          simp only [Bool.or_eq_false_iff] at hv
          simp [Seen.told, hv.2, ha.nominals hkn hx hv.1]
      dsimp only
      split
      · next h =>
        refine Outcome.all_ret.2 ⟨hw', fun h => (Bool.false_ne_true h).elim, fun _ => .inr (.inl ?_)⟩
        show (seen strict cfg w).terminate = true
        rw [e]
        exact h
      · next h =>
        have hd' : (seen strict cfg w).due = false := by rw [e]; exact hd
        have hae' : J (seen strict cfg w) := by rw [e]; exact hJ _ _ hae
        have h0 : a.info.terminateSimulation = false := by simpa using h
        split
        · exact ih _ _ _ hw' ha' ⟨_, by rw [e]; rfl⟩ hd' hae' h0
        · next hn =>
          refine hk _ _ _ hw' ha' ?_ hd' hae' h0
          show (seen strict cfg w).phase = _
          rw [e]
          simp [Seen.told, hn]

theorem seen_terminate {s : Sim F (Dialogue F)} {q : Seen F} {c : Call F} {known : Prop} {nom val : Bool}
    (ha : Agrees cfg known nom val s q) (ht : s.info.terminateSimulation = false) :
    q.terminate = true → q.phase = .continuous ∧ c = .record := by
  intro h
  rw [ha.terminate, ht] at h
  cases h

theorem initial_good (fuel : Nat) {s : Sim F (Dialogue F)} (hw : Obeys strict cfg s.w)
    (ha : Agrees cfg False false false s (seen strict cfg s.w)) (hp : ∃ b, (seen strict cfg s.w).phase = .event b)
    (hd : (seen strict cfg s.w).due = false) (ht : s.info.terminateSimulation = false)
    (hi : (seen strict cfg s.w).indicators = none) (h0 : (seen strict cfg s.w).steps = 0) :
    (initial fmu.api cfg fuel s).All (Good strict cfg) := by
  unfold initial
  refine iterate_good (known := False) (J := fun q => q.indicators = none ∧ q.steps = 0) (fun _ _ h => h) ?_ fuel s false false hw ha
    hp hd ⟨hi, h0⟩ ht
  clear ha hp hd ht hw s hi h0
  intro s nom val hw ha hp hd ⟨hi, h0⟩ ht
  refine CALL_good (c := .enterContinuousTimeMode) rfl hw ⟨ha.failed, seen_terminate ha ht, hp⟩ ?_
  intro w hw e
  generalize fmu s.w .enterContinuousTimeMode = a at e
  dsimp only
  have cont : ∀ (s : Sim F (Dialogue F)), Obeys strict cfg s.w → Agrees cfg True false false s (seen strict cfg s.w) →
      s.info.terminateSimulation = false → (seen strict cfg s.w).phase = .continuous →
      (seen strict cfg s.w).due = false → (seen strict cfg s.w).steps = 0 →
      (CALL s (fmu.api.record s.w) fun s _ => .ret (true, { s with step := 0 })).All (Good strict cfg) := by
    intro s hw h ht hp hd h0
    refine CALL_good (c := .record) rfl hw ⟨h.failed, seen_terminate h ht, hp, h.stepping⟩ ?_
    intro w hw e
    generalize fmu s.w .record = a at e
    refine Outcome.all_ret.2 ⟨hw, fun _ => ?_, fun h => (Bool.false_ne_true h.symm).elim⟩
    show Ready cfg _ (seen strict cfg w)
    rw [e]
    refine ⟨⟨h.failed, h.time, ?_, h.moved, h.stepping, h.terminate, h.next, h.indicators, h.states, h.nominals⟩, hp, rfl, ?_⟩
    · show (seen strict cfg s.w).steps % 2 ^ 64 = 0
      rw [h0]
    · intro h'
      exact (Bool.false_ne_true (hd.symm.trans h')).elim
  have states : ∀ (s : Sim F (Dialogue F)), Obeys strict cfg s.w → Agrees cfg False false false s (seen strict cfg s.w) →
      s.info.terminateSimulation = false → (seen strict cfg s.w).phase = .continuous →
      (seen strict cfg s.w).due = false → (seen strict cfg s.w).steps = 0 →
      (0 < cfg.nz → ∃ z, (seen strict cfg s.w).indicators = some z ∧ s.previousZ = (List.range cfg.nz).map z) →
      (if cfg.nx > 0 then
        CALL s (fmu.api.getStates s.w s.x cfg.nx) fun s x => let s := { s with x := x }
        CALL s (fmu.api.getNominals s.w s.nominals cfg.nx) fun s n =>
          CALL { s with nominals := n } (fmu.api.record s.w) fun s _ => .ret (true, { s with step := 0 })
      else CALL s (fmu.api.record s.w) fun s _ => .ret (true, { s with step := 0 })).All (Good strict cfg) := by
    intro s hw h ht hp hd h0 hz
    split
    · refine CALL_good (c := .getStates) rfl hw ⟨h.failed, seen_terminate h ht, hp⟩ ?_
      intro w hw e
      generalize fmu s.w .getStates = a at e
      refine CALL_good (c := .getNominals) rfl hw ⟨?_, ?_, ?_⟩ ?_
      · rw [e]; exact h.failed
      · rw [e]; exact fun hx => (Bool.false_ne_true ((h.terminate.trans ht).symm.trans hx)).elim
      · rw [e]; exact hp
      intro w' hw' e'
      generalize fmu w .getNominals = a' at e'
      rw [e] at e'
      refine cont { s with w := w', x := (List.range cfg.nx).map a.values, nominals := (List.range cfg.nx).map a'.values } hw' ?_ ht
        ?_ ?_ ?_
      · show Agrees cfg True false false _ (seen strict cfg w')
        rw [e']
        exact ⟨h.failed, h.time, h.steps, h.moved, h.stepping, h.terminate, h.next, fun _ => hz, fun _ _ _ => ⟨_, rfl, rfl⟩,
          fun _ _ _ => rfl⟩
      · show (seen strict cfg w').phase = _
        rw [e']; exact hp
      · show (seen strict cfg w').due = _
        rw [e']; exact hd
      · show (seen strict cfg w').steps = _
        rw [e']; exact h0
    · next hx =>
      exact cont s hw ⟨h.failed, h.time, h.steps, h.moved, h.stepping, h.terminate, h.next, fun _ => hz, fun _ h => (hx h).elim,
        fun _ h => (hx h).elim⟩ ht hp hd h0
  split
  · refine CALL_good (c := .getIndicators) rfl hw ⟨?_, ?_, ?_⟩ ?_
    · rw [e]; exact ha.failed
    · rw [e]; exact fun hx => (Bool.false_ne_true ((ha.terminate.trans ht).symm.trans hx)).elim
    · rw [e]; exact ⟨rfl, ha.moved⟩
    intro w' hw' e'
    generalize fmu w .getIndicators = a' at e'
    rw [e] at e'
    refine states { s with w := w', previousZ := (List.range cfg.nz).map a'.values } hw' ?_ ht ?_ ?_ ?_ ?_
    · show Agrees cfg False false false _ (seen strict cfg w')
      rw [e']
      exact ⟨ha.failed, ha.time, ha.steps, ha.moved, ha.stepping, ha.terminate, ha.next, fun h => h.elim, fun h => h.elim,
        fun h => h.elim⟩
    · show (seen strict cfg w').phase = _
      rw [e']; rfl
    · show (seen strict cfg w').due = _
      rw [e']
      simp [Seen.told, hd, hi]
    · show (seen strict cfg w').steps = _
      rw [e']; exact h0
    · show 0 < cfg.nz → ∃ z, (seen strict cfg w').indicators = some z ∧ _
      rw [e']
      exact fun _ => ⟨_, rfl, rfl⟩
  · next hz =>
    refine states { s with w := w } hw ?_ ht ?_ ?_ ?_ fun h => (hz h).elim
    · show Agrees cfg False false false _ (seen strict cfg w)
      rw [e]
      exact ⟨ha.failed, ha.time, ha.steps, ha.moved, ha.stepping, ha.terminate, ha.next, fun h => h.elim, fun h => h.elim,
        fun h => h.elim⟩
    · show (seen strict cfg w).phase = _
      rw [e]; rfl
    · show (seen strict cfg w).due = _
      rw [e]; exact hd
    · show (seen strict cfg w).steps = _
      rw [e]; exact h0

/-- The end of a pass, before the call of `fmi2CompletedIntegratorStep` or `fmi3CompletedIntegratorStep`. -/
structure Stepped (cfg : Config F) (s : Sim F (Dialogue F)) (q : Seen F) : Prop where
  failed : q.failed = false
  time : q.time = s.time
  steps : q.steps % 2 ^ 64 = s.step
  moved : q.moved = false
  stepping : q.stepping = true
  terminate : q.terminate = false
  next : q.nextEvent = if s.info.nextEventTimeDefined then some s.info.nextEventTime else none
  indicators : 0 < cfg.nz → ∃ z, q.indicators = some z ∧ s.previousZ = (List.range cfg.nz).map z
  states : 0 < cfg.nx → ∃ y, q.states = some y ∧ s.x = (List.range cfg.nx).map y
  nominals : 0 < cfg.nx → q.nominals = true
  phase : q.phase = .continuous
  checked : 0 < cfg.nz → q.checked = true
  due : q.due = true → ((s.info.nextEventTimeDefined && (s.info.nextEventTime <=. s.time)) || s.stateEvent) = true

theorem finish_good {s : Sim F (Dialogue F)} (hw : Obeys strict cfg s.w) (h : Stepped cfg s (seen strict cfg s.w)) :
    (finish fmu.api cfg s).All (Good strict cfg) := by
  unfold finish
  refine CALL_good (c := .completed) rfl hw ⟨h.failed, ?_, h.phase, h.stepping, h.moved, h.checked⟩ ?_
  · rw [h.terminate]
    intro h
    cases h
  intro w hw' e
  generalize fmu s.w .completed = a at e
  dsimp only
  split
  · next ht =>
    refine Outcome.all_ret.2 ⟨hw', fun h => (Bool.false_ne_true h).elim, fun _ => .inr (.inl ?_)⟩
    show (seen strict cfg w).terminate = true
    rw [e]
    simp only [Bool.and_eq_true] at ht
    exact ht.2
  · refine CALL_good (c := .record) rfl hw' ⟨?_, ?_, ?_⟩ ?_
    · rw [e]; exact h.failed
    · rw [e]; exact fun _ => ⟨h.phase, rfl⟩
    · rw [e]; exact ⟨h.phase, rfl⟩
    · intro w' hw' e'
      generalize fmu w .record = a' at e'
      refine Outcome.all_ret.2 ⟨hw', fun _ => ?_, fun h => (Bool.false_ne_true h.symm).elim⟩
      show Ready cfg _ (seen strict cfg w')
      rw [e', e]
      refine ⟨⟨h.failed, h.time, h.steps, h.moved, rfl, rfl, h.next, fun _ => h.indicators, fun _ hx _ => h.states hx,
        fun _ hx _ => h.nominals hx⟩, h.phase, rfl, ?_⟩
      intro hd
      simp only [Seen.told, Bool.or_eq_true] at hd
      unfold eventOccurred
      simp only [Bool.or_eq_true]
      rcases hd with hd | hd
      · rcases (Bool.or_eq_true _ _).mp (h.due hd) with h1 | h1
        · exact .inl (.inl (.inr h1))
        · exact .inl (.inr h1)
      · exact .inr hd

theorem detect_good {s : Sim F (Dialogue F)} {occurred : Bool} (hs : strict = false) (hw : Obeys strict cfg s.w)
    (h : ∀ b z, (0 < cfg.nz → (seen strict cfg s.w).indicators = some z ∧ s.previousZ = (List.range cfg.nz).map z) →
      Stepped cfg { s with stateEvent := b } { seen strict cfg s.w with checked := true, due := false })
    (hz : 0 < cfg.nz → ∃ z, (seen strict cfg s.w).indicators = some z ∧ s.previousZ = (List.range cfg.nz).map z)
    (ho : occurred = true → (seen strict cfg s.w).afterEvent = true)
    (hd : (seen strict cfg s.w).due = true → (s.info.nextEventTimeDefined && (s.info.nextEventTime <=. s.time)) = true) :
    (detect fmu.api cfg occurred s).All (Good strict cfg) := by
  subst hs
  have h0 : ∃ z, 0 < cfg.nz → (seen false cfg s.w).indicators = some z ∧ s.previousZ = (List.range cfg.nz).map z := by
    by_cases hn : 0 < cfg.nz
    · obtain ⟨z, hz⟩ := hz hn
      exact ⟨z, fun _ => hz⟩
    · exact ⟨fun _ => Arith.lit 0, fun h => (hn h).elim⟩
  obtain ⟨z, hz⟩ := h0
  have hb : ∀ b, _ := fun b => h b z hz
  unfold detect
  split
  · next hn =>
    have hc : Correct cfg (seen false cfg s.w) .getIndicators :=
      ⟨(hb false).failed, fun h => (Bool.false_ne_true ((hb false).terminate.symm.trans h)).elim,
        (hb false).phase, (hb false).moved⟩
    dsimp only
    split
    · next hoc =>
      refine CALL_good (c := .getIndicators) rfl hw hc ?_
      intro w hw' e
      generalize fmu s.w .getIndicators = a at e
      refine finish_good hw' ?_
      show Stepped cfg _ (seen false cfg w)
      rw [e]
      refine ⟨(hb false).failed, (hb false).time, (hb false).steps, (hb false).moved, (hb false).stepping, (hb false).terminate,
        (hb false).next, fun _ => ⟨a.values, rfl, rfl⟩, (hb false).states, (hb false).nominals, (hb false).phase, fun _ => rfl, ?_⟩
      intro hd'
      simp only [Seen.told, ho hoc, Bool.or_eq_true, decide_eq_true_eq] at hd'
      rcases hd' with hd' | ⟨_, _, h1, _⟩
      · simp only [hd hd', Bool.true_or]
      · rcases h1 with h1 | h1 <;> cases h1
    · next hoc =>
      refine CALL_good (c := .getIndicators) rfl hw hc ?_
      intro w hw' e
      generalize fmu s.w .getIndicators = a at e
      refine finish_good hw' ?_
      show Stepped cfg _ (seen false cfg w)
      rw [e]
      refine ⟨(hb false).failed, (hb false).time, (hb false).steps, (hb false).moved, (hb false).stepping, (hb false).terminate,
        (hb false).next, fun _ => ⟨a.values, rfl, rfl⟩, (hb false).states, (hb false).nominals, (hb false).phase, fun _ => rfl, ?_⟩
      intro hd'
      simp only [Seen.told, Bool.or_eq_true, decide_eq_true_eq] at hd'
      rcases hd' with hd' | ⟨z', h1, _, h2⟩
      · simp only [hd hd', Bool.true_or]
      · rw [(hz hn).1] at h1
        cases h1
        simp only [(hz hn).2, zeroCrossing_range, h2, Bool.or_true]
        rw [(zeroCrossing_range _ _ _).2 h2, Bool.or_true]
  · next hn =>
    refine finish_good hw ?_
    have := hb s.stateEvent
    refine ⟨this.failed, this.time, this.steps, this.moved, this.stepping, this.terminate,
        this.next, this.indicators, this.states, this.nominals, this.phase, fun h => (hn h).elim, ?_⟩
    intro hd'
    simp only [hd hd', Bool.true_or]

/-- After the events have been handled. -/
structure Calm (cfg : Config F) (occurred : Bool) (s : Sim F (Dialogue F)) (q : Seen F) : Prop
    extends Agrees cfg True false false s q where
  phase : q.phase = .continuous
  recorded : q.recorded = true
  due : q.due = false
  going : s.info.terminateSimulation = false
  after : occurred = true → q.afterEvent = true

theorem advance_good {s : Sim F (Dialogue F)} {occurred : Bool} (hs : strict = false) (hw : Obeys strict cfg s.w)
    (h : Calm cfg occurred s (seen strict cfg s.w)) (ht : (cfg.stopTime <=. s.time) = false) :
    (advance fmu.api cfg occurred s).All (Good strict cfg) := by
  have move : ∀ (s : Sim F (Dialogue F)), Obeys strict cfg s.w → Calm cfg occurred s (seen strict cfg s.w) →
      (cfg.stopTime <=. s.time) = false →
      (0 < cfg.nx → ∃ d, (seen strict cfg s.w).derivatives = some d ∧ s.derX = (List.range cfg.nx).map d) →
      (CALL { s with step := (s.step + 1) % 2 ^ 64, time := Arith.lit (((s.step + 1) % 2 ^ 64 : Nat) : Rat) *. cfg.h }
        (fmu.api.setTime s.w (Arith.lit (((s.step + 1) % 2 ^ 64 : Nat) : Rat) *. cfg.h)) fun s _ =>
        if cfg.nx > 0 then
          let s := { s with x := eulerUpdate cfg.h cfg.nx s.x s.derX }
          CALL s (fmu.api.setStates s.w s.x cfg.nx) fun s _ => detect fmu.api cfg occurred s
        else detect fmu.api cfg occurred s).All (Good strict cfg) := by
    intro s hw h ht hd
    have e0 : (s.step + 1) % 2 ^ 64 = ((seen strict cfg s.w).steps + 1) % 2 ^ 64 := by
      rw [← h.steps]
      omega
    refine CALL_good (c := .setTime (Arith.lit (((s.step + 1) % 2 ^ 64 : Nat) : Rat) *. cfg.h)) rfl hw
      ⟨h.failed, seen_terminate h.toAgrees h.going, h.phase, h.stepping, h.recorded, h.due, by rw [h.time]; exact ht,
        by rw [e0], ?_, ?_⟩ ?_
    · intro hx
      obtain ⟨d, hd, _⟩ := hd hx
      exact ⟨by rw [hd]; rfl, h.nominals trivial hx rfl⟩
    · intro hz
      obtain ⟨z, hz, _⟩ := h.indicators trivial hz
      rw [hz]; rfl
    intro w hw' e
    generalize fmu s.w (.setTime (Arith.lit (((s.step + 1) % 2 ^ 64 : Nat) : Rat) *. cfg.h)) = a at e
    have hdue : ∀ w, (seen strict cfg w).due = ((seen strict cfg s.w).told strict cfg
        (.setTime (Arith.lit (((s.step + 1) % 2 ^ 64 : Nat) : Rat) *. cfg.h)) a).due →
        (seen strict cfg w).due = true →
        (s.info.nextEventTimeDefined && (s.info.nextEventTime <=. (Arith.lit (((s.step + 1) % 2 ^ 64 : Nat) : Rat) *. cfg.h))) =
          true := by
      intro w e hd
      rw [e] at hd
      simp only [Seen.told, h.due, Bool.false_or, decide_eq_true_eq] at hd
      obtain ⟨x, h1, h2⟩ := hd
      rw [h.next] at h1
      split at h1
      · next h3 => cases h1; rw [h3, h2]; rfl
      · cases h1
    dsimp only
    split
    · next hx =>
      obtain ⟨d, hd, hd'⟩ := hd hx
      obtain ⟨y, hy, hy'⟩ := h.states trivial hx rfl
      have hu : eulerUpdate cfg.h cfg.nx s.x s.derX = (List.range cfg.nx).map fun i => y i +. cfg.h *. d i := by
        rw [hy', hd', eulerUpdate_range]
      refine CALL_good (c := .setStates (eulerUpdate cfg.h cfg.nx s.x s.derX)) rfl hw' ⟨?_, ?_, ?_⟩ ?_
      · rw [e]; exact h.failed
      · rw [e]; exact fun ht => (Bool.false_ne_true ((h.terminate.trans h.going).symm.trans ht)).elim
      · rw [e]; exact ⟨h.phase, by simp [Seen.told, hx], y, d, hy, hd, hu⟩
      · intro w' hw' e'
        generalize fmu w (.setStates (eulerUpdate cfg.h cfg.nx s.x s.derX)) = a' at e'
        refine detect_good hs hw' ?_ ?_ ?_ ?_
        · intro b z hz
          show Stepped cfg _ { seen strict cfg w' with checked := true, due := false }
          rw [e', e]
          refine ⟨h.failed, rfl, ?_, rfl, rfl, by exact h.terminate.trans h.going, h.next, fun hn => ⟨z, ?_, (hz hn).2⟩, fun hx => ?_,
            fun hx => h.nominals trivial hx rfl, h.phase, fun _ => rfl, fun h => (Bool.false_ne_true h).elim⟩
          · exact e0.symm
          · have := (hz hn).1
            rw [e', e] at this
            exact this
          · exact ⟨_, rfl, by rw [hu]; exact (map_getD _ _ _).symm⟩
        · show 0 < cfg.nz → ∃ z, (seen strict cfg w').indicators = some z ∧ _
          rw [e', e]
          exact h.indicators trivial
        · show _ → (seen strict cfg w').afterEvent = true
          rw [e', e]
          exact h.after
        · exact hdue w' (by rw [e', e]; rfl)
    · next hx =>
      refine detect_good hs hw' ?_ ?_ ?_ ?_
      · intro b z hz
        show Stepped cfg _ { seen strict cfg w with checked := true, due := false }
        rw [e]
        refine ⟨h.failed, rfl, ?_, ?_, rfl, by exact h.terminate.trans h.going, h.next, fun hn => ⟨z, ?_, (hz hn).2⟩, fun h => (hx h).elim,
          fun h => (hx h).elim, h.phase, fun _ => rfl, fun h => (Bool.false_ne_true h).elim⟩
        · exact e0.symm
        · exact decide_eq_false hx
        · have := (hz hn).1
          rw [e] at this
          exact this
      · show 0 < cfg.nz → ∃ z, (seen strict cfg w).indicators = some z ∧ _
        rw [e]
        exact h.indicators trivial
      · show _ → (seen strict cfg w).afterEvent = true
        rw [e]
        exact h.after
      · exact hdue w (by rw [e])
  unfold advance
  dsimp only
  by_cases hx : cfg.nx > 0
  · rw [if_pos hx]
    obtain ⟨y, hy, hy'⟩ := h.states trivial hx rfl
    refine CALL_good (c := .getDerivatives) rfl hw ⟨h.failed, seen_terminate h.toAgrees h.going, h.phase, by rw [hy]; rfl⟩ ?_
    intro w hw' e
    generalize fmu s.w .getDerivatives = a at e
    refine move { s with w := w, derX := (List.range cfg.nx).map a.values } hw' ?_ ht ?_
    · show Calm cfg occurred _ (seen strict cfg w)
      rw [e]
      exact ⟨⟨h.failed, h.time, h.steps, h.moved, h.stepping, h.terminate, h.next, h.indicators, h.states, h.nominals⟩, h.phase,
        h.recorded, h.due, h.going, h.after⟩
    · intro _
      refine ⟨a.values, ?_, rfl⟩
      show (seen strict cfg w).derivatives = _
      rw [e]
      rfl
  · rw [if_neg hx]
    exact move s hw h ht fun h => (hx h).elim

theorem handle_good {s : Sim F (Dialogue F)} {fuel : Nat} {k : Sim F (Dialogue F) → Result F (Dialogue F)}
    (hw : Obeys strict cfg s.w) (h : Ready cfg s (seen strict cfg s.w)) (ht : s.info.terminateSimulation = false)
    (hk : ∀ s, Obeys strict cfg s.w → Calm cfg true s (seen strict cfg s.w) → (k s).All (Good strict cfg)) :
    (handle fmu.api cfg fuel s k).All (Good strict cfg) := by
  unfold handle
  refine CALL_good (c := .enterEventMode) rfl hw ⟨h.failed, seen_terminate h.toAgrees ht, h.phase, h.stepping, h.recorded⟩ ?_
  intro w hw e
  generalize fmu s.w .enterEventMode = a at e
  refine iterate_good (known := True) (J := fun q => q.afterEvent = true) (fun _ _ h => h) ?_ fuel { s with w := w } false false hw ?_ ?_ ?_ ?_ ht
  · clear hw h ht e
    intro s nom val hw h hp hd hae ht
    refine CALL_good (c := .enterContinuousTimeMode) rfl hw ⟨h.failed, seen_terminate h ht, hp⟩ ?_
    intro w hw e
    generalize fmu s.w .enterContinuousTimeMode = a at e
    refine CALL_good (c := .record) rfl hw ⟨?_, ?_, ?_⟩ ?_
    · rw [e]; exact h.failed
    · rw [e]; exact fun _ => ⟨rfl, rfl⟩
    · rw [e]; exact ⟨rfl, h.stepping⟩
    intro w' hw' e'
    generalize fmu w .record = a' at e'
    rw [e] at e'
    clear e hw
    have hnom : ∀ (s' : Sim F (Dialogue F)), Obeys strict cfg s'.w → Agrees cfg True nom false s' (seen strict cfg s'.w) →
        s'.info.terminateSimulation = false → (seen strict cfg s'.w).phase = .continuous →
        (seen strict cfg s'.w).recorded = true → (seen strict cfg s'.w).due = false →
        (seen strict cfg s'.w).afterEvent = true →
        (if cfg.nx > 0 && nom then CALL s' (fmu.api.getNominals s'.w s'.nominals cfg.nx) fun s n => k { s with nominals := n }
          else k s').All (Good strict cfg) := by
      intro s' hw h ht hp hr hd ha
      split
      · refine CALL_good (c := .getNominals) rfl hw ⟨h.failed, seen_terminate h ht, hp⟩ ?_
        intro w hw e
        generalize fmu s'.w .getNominals = a at e
        refine hk _ hw ?_
        show Calm cfg true _ (seen strict cfg w)
        rw [e]
        exact ⟨⟨h.failed, h.time, h.steps, h.moved, h.stepping, h.terminate, h.next, h.indicators, h.states, fun _ _ _ => rfl⟩, hp, hr,
          hd, ht, fun _ => ha⟩
      · next hn =>
        refine hk _ hw ⟨⟨h.failed, h.time, h.steps, h.moved, h.stepping, h.terminate, h.next, h.indicators, h.states,
          fun _ hx _ => h.nominals trivial hx ?_⟩, hp, hr, hd, ht, fun _ => ha⟩
        simpa [hx] using hn
    dsimp only
    split
    · refine CALL_good (c := .getStates) rfl hw' ⟨?_, ?_, ?_⟩ ?_
      · rw [e']; exact h.failed
      · rw [e']; exact fun hx => (Bool.false_ne_true ((h.terminate.trans ht).symm.trans hx)).elim
      · rw [e']; rfl
      intro w hw e
      generalize fmu w' .getStates = a at e
      rw [e'] at e
      refine hnom _ hw ?_ ht ?_ ?_ ?_ ?_
      · show Agrees cfg True nom false _ (seen strict cfg w)
        rw [e]
        exact ⟨h.failed, h.time, h.steps, h.moved, h.stepping, h.terminate, h.next, h.indicators, fun _ _ _ => ⟨_, rfl, rfl⟩,
          h.nominals⟩
      · show (seen strict cfg w).phase = _
        rw [e]; rfl
      · show (seen strict cfg w).recorded = _
        rw [e]; rfl
      · show (seen strict cfg w).due = _
        rw [e]; exact hd
      · show (seen strict cfg w).afterEvent = _
        rw [e]; exact hae
    · next hn =>
      refine hnom _ hw' ?_ ht ?_ ?_ ?_ ?_
      · show Agrees cfg True nom false _ (seen strict cfg w')
        rw [e']
        exact ⟨h.failed, h.time, h.steps, h.moved, h.stepping, h.terminate, h.next, h.indicators,
          fun _ hx _ => h.states trivial hx (by simpa [hx] using hn), h.nominals⟩
      · show (seen strict cfg w').phase = _
        rw [e']; rfl
      · show (seen strict cfg w').recorded = _
        rw [e']; rfl
      · show (seen strict cfg w').due = _
        rw [e']; exact hd
      · show (seen strict cfg w').afterEvent = _
        rw [e']; exact hae
  · show Agrees cfg True false false _ (seen strict cfg w)
    rw [e]
    exact ⟨h.failed, h.time, h.steps, h.moved, h.stepping, h.terminate, h.next, h.indicators, h.states, h.nominals⟩
  · exact ⟨false, by rw [e]; rfl⟩
  · show (seen strict cfg w).due = _
    rw [e]; rfl
  · show (seen strict cfg w).afterEvent = _
    rw [e]; rfl

theorem pass_good {s : Sim F (Dialogue F)} {fuel : Nat} (hs : strict = false) (hw : Obeys strict cfg s.w)
    (h : Ready cfg s (seen strict cfg s.w)) : (pass fmu.api cfg fuel s).All (Good strict cfg) := by
  unfold pass
  split
  · next ht =>
    refine Outcome.all_ret.2 ⟨hw, fun h => (Bool.false_ne_true h).elim, fun _ => .inr (.inl ?_)⟩
    exact h.terminate.trans ht
  next ht =>
  have ht : s.info.terminateSimulation = false := by simpa using ht
  have hrest : ∀ s', Obeys strict cfg s'.w → Calm cfg (eventOccurred s) s' (seen strict cfg s'.w) →
      (if cfg.stopTime <=. s'.time then Outcome.ret (false, s') else advance fmu.api cfg (eventOccurred s) s').All
        (Good strict cfg) := by
    intro s' hw h
    split
    · next hst =>
      refine Outcome.all_ret.2 ⟨hw, fun h => (Bool.false_ne_true h).elim, fun _ => .inr (.inr ?_)⟩
      show (cfg.stopTime <=. (seen strict cfg s'.w).time) = true
      rw [h.time]; exact hst
    · next hst => exact advance_good hs hw h (by simpa using hst)
  dsimp only
  cases ho : eventOccurred s with
  | true =>
    rw [ho] at hrest
    rw [if_pos rfl]
    exact handle_good hw h ht hrest
  | false =>
    rw [ho] at hrest
    rw [if_neg Bool.false_ne_true]
    refine hrest s hw ⟨h.toAgrees, h.phase, h.recorded, ?_, ht, fun h => (Bool.false_ne_true h).elim⟩
    cases hd : (seen strict cfg s.w).due with
    | false => rfl
    | true => rw [h.due hd] at ho; cases ho

theorem passes_good {s : Sim F (Dialogue F)} {fuel : Nat} (hs : strict = false) (hw : Obeys strict cfg s.w)
    (h : Ready cfg s (seen strict cfg s.w)) : ∀ n, (passes fmu.api cfg fuel n s).All (Good strict cfg) := by
  intro n
  induction n with
  | zero => exact Outcome.all_ret.2 ⟨hw, fun _ => h, fun h => (Bool.false_ne_true h.symm).elim⟩
  | succ n ih =>
    refine ih.bind ?_
    intro ⟨b, s⟩ hg
    dsimp only
    split
    · next hb => exact pass_good hs hg.1 (hg.2.1 hb)
    · next hb => exact Outcome.all_ret.2 ⟨hg.1, fun h => (Bool.false_ne_true h).elim, fun _ => hg.2.2 (by simpa using hb)⟩

end Verif.Importer.Euler
