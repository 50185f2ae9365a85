import Verif.Lemmas.ExitStatus
import Verif.Importer.Inputs

/-!
# What the status of the Model Exchange programs says
-/

set_option linter.unusedSectionVars false

namespace Verif
open Importer.Euler Importer.CoSim

section
variable {F W O V : Type} {call : W → O → Outcome (W × Status × V)} {record : List O} {w₀ w w' : W} {rows : List (Row F V)}

theorem Writes.calls {ops : List O} {vs : List V} (h : Writes call record w₀ w rows) (ha : AllOK call w ops w' vs) : Writes call record w₀ w' rows := by
  induction ha with
  | nil => exact h
  | cons e _ ih => exact ih (h.call e)

theorem Writes.allOK (h : Writes call record w₀ w rows) : ∃ ops vs, AllOK call w₀ ops w vs := by
  induction h with
  | start => exact ⟨[], [], .nil⟩
  | call _ e ih =>
    obtain ⟨ops, vs, ha⟩ := ih
    exact ⟨_, _, ha.append (.cons e .nil)⟩
  | record _ e ih =>
    obtain ⟨ops, vs, ha⟩ := ih
    exact ⟨_, _, ha.append e⟩

theorem Writes.fails {o : O} {s : Status} {v : V} (h : Writes call record w₀ w rows) (e : call w o = .ret (w', s, v)) (hs : s ≠ .OK) : SomeCallFails call w₀ := by
  obtain ⟨ops, vs, ha⟩ := h.allOK
  exact ⟨_, _, _, _, _, _, _, ha, e, hs⟩

/-- Every call has succeeded. -/
def Clean (call : W → O → Outcome (W × Status × V)) (record : List O) (w₀ : W) (s : Run F W V) : Prop :=
  s.status = .OK ∧ Writes call record w₀ s.w s.rows

/-- The last call has failed. -/
def Failed (call : W → O → Outcome (W × Status × V)) (w₀ : W) (s : Run F W V) : Prop := s.status ≠ .OK ∧ SomeCallFails call w₀

variable {β : Type}

/-- What a call of the program makes of the instance and its variables. -/
def Told (call : W → O → Outcome (W × Status × V)) (record : List O) (w₀ : W) (r : Outcome (Run F W V × Status × β)) : Prop :=
  r.All fun x => if x.2.1 = .OK then Clean call record w₀ x.1 else Failed call w₀ x.1

/-- One call. -/
theorem Clean.told {s : Run F W V} (h : Clean call record w₀ s) {r : Outcome (W × Status × β)}
    (hr : ∀ w' st b, r = .ret (w', st, b) → ∃ o v, call s.w o = .ret (w', st, v)) : Told call record w₀ (s.call r) := by
  rintro ⟨s', st, b⟩ e
  obtain ⟨⟨w1, st1, b1⟩, e1, e2⟩ := Outcome.bind_eq_ret.1 e
  cases e2
  obtain ⟨o, v, e3⟩ := hr _ _ _ e1
  simp only []
  split
  · next hs => exact ⟨hs, h.2.call (by rw [e3, hs])⟩
  · next hs => exact ⟨hs, h.2.fails e3 hs⟩

/-- Several calls. -/
theorem Clean.apply {s : Run F W V} (h : Clean call record w₀ s) (ops : List O) : Told call record w₀ (Run.apply call s ops) := by
  rintro ⟨s', st, b⟩ e
  obtain ⟨⟨w1, st1, b1⟩, e1, e2⟩ := Outcome.bind_eq_ret.1 e
  cases e2
  obtain ⟨⟨w2, st2, vs⟩, e3, e4⟩ := Outcome.bind_eq_ret.1 e1
  cases e4
  simp only []
  rcases calls_ret e3 with ⟨rfl, ha⟩ | ⟨hs, pre, w₁, us, op, v, ha, e⟩
  · rw [if_pos rfl]; exact ⟨rfl, h.2.calls ha⟩
  · rw [if_neg hs]; exact ⟨hs, (h.2.calls ha).fails e hs⟩

/-- The functions that the program calls are calls of the (API). -/
structure CallsApi (call : W → O → Outcome (W × Status × V)) (api : Importer.Euler.Api F W) : Prop where
  getDerivatives w l n w' st b : api.getDerivatives w l n = .ret (w', st, b) → ∃ o v, call w o = .ret (w', st, v)
  getStates w l n w' st b : api.getStates w l n = .ret (w', st, b) → ∃ o v, call w o = .ret (w', st, v)
  getNominals w l n w' st b : api.getNominals w l n = .ret (w', st, b) → ∃ o v, call w o = .ret (w', st, v)
  getIndicators w l n w' st b : api.getIndicators w l n = .ret (w', st, b) → ∃ o v, call w o = .ret (w', st, v)
  setStates w l n w' st b : api.setStates w l n = .ret (w', st, b) → ∃ o v, call w o = .ret (w', st, v)
  setTime w t w' st b : api.setTime w t = .ret (w', st, b) → ∃ o v, call w o = .ret (w', st, v)
  enterEventMode w w' st b : api.enterEventMode w = .ret (w', st, b) → ∃ o v, call w o = .ret (w', st, v)
  enterContinuousTimeMode w w' st b : api.enterContinuousTimeMode w = .ret (w', st, b) → ∃ o v, call w o = .ret (w', st, v)
  update w i w' st b : api.update w i = .ret (w', st, b) → ∃ o v, call w o = .ret (w', st, v)
  completed w x y w' st b : api.completed w x y = .ret (w', st, b) → ∃ o v, call w o = .ret (w', st, v)

theorem Clean.recorded {s : Run F W V} {api : Importer.Euler.Api F W} (h : Clean call record w₀ s) :
    Told call record w₀ ((watch api (Importer.CoSim.calls call record)).record s) := by
  rintro ⟨s', st, b⟩ e
  obtain ⟨⟨w1, st1, vs⟩, e1, e2⟩ := Outcome.bind_eq_ret.1 e
  cases e2
  simp only []
  rcases calls_ret e1 with ⟨rfl, ha⟩ | ⟨hs, pre, w₁, us, op, v, ha, e⟩
  · rw [if_pos rfl, if_pos rfl]; exact ⟨rfl, h.2.record ha⟩
  · rw [if_neg hs]; exact ⟨hs, (h.2.calls ha).fails e hs⟩

/-- What the program makes of the instance and its variables: it goes on only if every call has succeeded. -/
def Sound (call : W → O → Outcome (W × Status × V)) (record : List O) (w₀ : W) (r : Result F (Run F W V)) : Prop :=
  r.All fun x => Clean call record w₀ x.2.w ∨ x.1 = false ∧ Failed call w₀ x.2.w

theorem sound_ret {b : Bool} {s : Sim F (Run F W V)} (h : Clean call record w₀ s.w) : Sound call record w₀ (.ret (b, s)) := by
  rintro _ ⟨⟩; exact .inl h

theorem sound_CALL {s : Sim F (Run F W V)} {r : Outcome (Run F W V × Status × β)} {k} (hr : Told call record w₀ r)
    (hk : ∀ s b, Clean call record w₀ s.w → Sound call record w₀ (k s b)) : Sound call record w₀ (CALL s r k) := by
  rintro x e
  obtain ⟨⟨w1, st, b⟩, e1, e2⟩ := Outcome.bind_eq_ret.1 e
  have := hr _ e1
  simp only [] at e2 this
  split at e2
  · next hs => rw [if_pos hs] at this; exact hk _ _ (by exact this) _ e2
  · next hs => rw [if_neg hs] at this; cases e2; exact .inr ⟨rfl, this⟩

variable [Arith F] [HasInf F] {api : Importer.Euler.Api F W} (A : CallsApi call api) {cfg : Config F} {fuel n : Nat}
include A

local notation "API" => watch api (Importer.CoSim.calls call record)

theorem sound_iterate {k : Sim F (Run F W V) → Bool → Bool → Result F (Run F W V)} (hk : ∀ s a b, Clean call record w₀ s.w → Sound call record w₀ (k s a b))
    {s : Sim F (Run F W V)} (h : Clean call record w₀ s.w) {a b : Bool} : Sound call record w₀ (iterate API k fuel s a b) := by
  induction fuel generalizing s a b with
  | zero => intro x e; cases e
  | succ fuel ih =>
    unfold iterate
    refine sound_CALL (h.told (A.update _ _)) fun s i h => ?_
    simp only []
    split
    · exact sound_ret h
    · split
      · exact ih (s := { s with info := i }) h
      · exact hk _ _ _ h

theorem sound_initial {s : Sim F (Run F W V)} (h : Clean call record w₀ s.w) : Sound call record w₀ (initial API cfg fuel s) := by
  refine sound_iterate A (fun s a b h => sound_CALL (h.told (A.enterContinuousTimeMode _)) fun s _ h => ?_) h
  have cont : ∀ s : Sim F (Run F W V), Clean call record w₀ s.w →
      Sound call record w₀ (CALL s ((API).record s.w) fun s _ => .ret (true, { s with step := 0 })) :=
    fun s h => sound_CALL h.recorded fun s _ h => sound_ret h
  have states : ∀ s : Sim F (Run F W V), Clean call record w₀ s.w → Sound call record w₀ (if cfg.nx > 0 then
        CALL s ((API).getStates s.w s.x cfg.nx) fun s x => let s := { s with x := x }
        CALL s ((API).getNominals s.w s.nominals cfg.nx) fun s n => CALL { s with nominals := n } ((API).record s.w) fun s _ => .ret (true, { s with step := 0 })
      else CALL s ((API).record s.w) fun s _ => .ret (true, { s with step := 0 })) := by
    intro s h
    split
    · exact sound_CALL (h.told (A.getStates _ _ _)) fun s x h => sound_CALL (h.told (A.getNominals _ _ _)) fun s x h => cont { s with nominals := x } h
    · exact cont s h
  simp only []
  split
  · exact sound_CALL (h.told (A.getIndicators _ _ _)) fun s x h => states { s with previousZ := x } h
  · exact states s h

theorem sound_after {s : Sim F (Run F W V)} (h : Clean call record w₀ s.w) {k : Sim F (Run F W V) → Result F (Run F W V)}
    (hk : ∀ s, Clean call record w₀ s.w → Sound call record w₀ (k s)) (nom val : Bool) :
    Sound call record w₀ (CALL s ((API).enterContinuousTimeMode s.w) fun s _ =>
      CALL s ((API).record s.w) fun s _ =>
      let nominals (s : Sim F (Run F W V)) : Result F (Run F W V) :=
        if cfg.nx > 0 && nom then
          CALL s ((API).getNominals s.w s.nominals cfg.nx) fun s n => k { s with nominals := n }
        else k s
      if cfg.nx > 0 && val then
        CALL s ((API).getStates s.w s.x cfg.nx) fun s x => nominals { s with x := x }
      else nominals s) := by
  refine sound_CALL (h.told (A.enterContinuousTimeMode _)) fun s _ h => sound_CALL h.recorded fun s _ h => ?_
  have nominals : ∀ s : Sim F (Run F W V), Clean call record w₀ s.w → Sound call record w₀ (if cfg.nx > 0 && nom then
          CALL s ((API).getNominals s.w s.nominals cfg.nx) fun s n => k { s with nominals := n }
        else k s) := by
    intro s h
    split
    · exact sound_CALL (h.told (A.getNominals _ _ _)) fun s x h => hk { s with nominals := x } h
    · exact hk s h
  simp only []
  split
  · exact sound_CALL (h.told (A.getStates _ _ _)) fun s x h => nominals { s with x := x } h
  · exact nominals s h

theorem sound_finish {s : Sim F (Run F W V)} (h : Clean call record w₀ s.w) : Sound call record w₀ (finish API cfg s) := by
  refine sound_CALL (h.told (A.completed _ _ _)) fun s b h => ?_
  simp only []
  split
  · exact sound_ret h
  · exact sound_CALL (s := { s with stepEvent := b.1, info := { s.info with terminateSimulation := b.2 } }) h.recorded fun s _ h => sound_ret h

theorem sound_detect {s : Sim F (Run F W V)} (h : Clean call record w₀ s.w) {occurred : Bool} : Sound call record w₀ (detect API cfg occurred s) := by
  unfold detect
  split
  · simp only []
    split
    · exact sound_CALL (s := { s with stateEvent := false }) (h.told (A.getIndicators _ _ _)) fun s x h => sound_finish A (s := { s with previousZ := x }) h
    · refine sound_CALL (s := { s with stateEvent := false }) (h.told (A.getIndicators _ _ _)) fun s x h => ?_
      exact sound_finish A (s := { s with z := x, stateEvent := zeroCrossing cfg.nz s.previousZ x, previousZ := x }) h
  · exact sound_finish A h

theorem sound_move {s : Sim F (Run F W V)} (h : Clean call record w₀ s.w) {occurred : Bool} : Sound call record w₀ (if cfg.nx > 0 then
      let s := { s with x := eulerUpdate cfg.h cfg.nx s.x s.derX }
      CALL s ((API).setStates s.w s.x cfg.nx) fun s _ => detect API cfg occurred s
    else detect API cfg occurred s) := by
  split
  · exact sound_CALL (s := { s with x := eulerUpdate cfg.h cfg.nx s.x s.derX }) (h.told (A.setStates _ _ _)) fun s _ h => sound_detect A h
  · exact sound_detect A h

/-! ## Without inputs -/

theorem sound_advance {s : Sim F (Run F W V)} (h : Clean call record w₀ s.w) {occurred : Bool} : Sound call record w₀ (advance API cfg occurred s) := by
  have time : ∀ (s : Sim F (Run F W V)) (t : F), Clean call record w₀ s.w → Told call record w₀ ((API).setTime s.w t) :=
    fun s t h => Clean.told (s := { s.w with time := t }) h (A.setTime _ _)
  have move : ∀ s : Sim F (Run F W V), Clean call record w₀ s.w → Sound call record w₀
      (let step : Nat := (s.step + 1) % 2 ^ 64
       let s := { s with step := step, time := Arith.lit (step : Rat) *. cfg.h }
       CALL s ((API).setTime s.w s.time) fun s _ =>
       if cfg.nx > 0 then
         let s := { s with x := eulerUpdate cfg.h cfg.nx s.x s.derX }
         CALL s ((API).setStates s.w s.x cfg.nx) fun s _ => detect API cfg occurred s
       else detect API cfg occurred s) :=
    fun s h => sound_CALL (time _ _ h) fun s _ h => sound_move A h
  unfold advance
  dsimp only
  by_cases hn : cfg.nx > 0
  · rw [if_pos hn]
    exact sound_CALL (h.told (A.getDerivatives _ _ _)) fun s x h => move { s with derX := x } h
  · rw [if_neg hn]
    exact move s h

theorem sound_passes {s : Sim F (Run F W V)} (h : Clean call record w₀ s.w) : Sound call record w₀ (passes API cfg fuel n s) := by
  induction n with
  | zero => exact sound_ret h
  | succ n ih =>
    intro x e
    obtain ⟨⟨b, s1⟩, e1, e2⟩ := Outcome.bind_eq_ret.1 e
    have h1 := ih _ e1
    simp only [] at e2 h1
    split at e2
    · next hb =>
      subst hb
      have h : Clean call record w₀ s1.w := h1.elim id fun h => absurd h.1 (by decide)
      have rest : ∀ s : Sim F (Run F W V), Clean call record w₀ s.w → Sound call record w₀
          (if cfg.stopTime <=. s.time then .ret (false, s) else advance API cfg (eventOccurred s1) s) := by
        intro s h
        split
        · exact sound_ret h
        · exact sound_advance A h
      revert e2
      suffices hs : Sound call record w₀ (pass API cfg fuel s1) from hs x
      unfold pass
      simp only []
      split
      · exact sound_ret h
      · split
        · exact sound_CALL (h.told (A.enterEventMode _)) fun s _ h => sound_iterate A (fun s a b h => sound_after A h rest a b) h
        · exact rest s1 h
    · cases e2
      exact h1.imp id fun h => ⟨rfl, h.2⟩

theorem sound_simulate {s : Run F W V} (h : Clean call record w₀ s) : Sound call record w₀ (simulate API cfg fuel n s) := by
  intro x e
  obtain ⟨⟨b, s1⟩, e1, e2⟩ := Outcome.bind_eq_ret.1 e
  have h1 := sound_initial A (s := Sim.start cfg s) h _ e1
  simp only [] at e2 h1
  split at e2
  · next hb =>
    subst hb
    exact sound_passes A (h1.elim id fun h => absurd h.1 (by decide)) _ e2
  · cases e2; exact h1.imp id fun h => ⟨rfl, h.2⟩

/-! ## With inputs -/

variable {inp : Inputs F O}

theorem sound_advanceWith {s : Sim F (Run F W V)} (h : Clean call record w₀ s.w) {occurred : Bool} :
    Sound call record w₀ (advanceWith API (Run.apply call) inp cfg occurred s) := by
  have time : ∀ (s : Sim F (Run F W V)) (t : F), Clean call record w₀ s.w → Told call record w₀ ((API).setTime s.w t) :=
    fun s t h => Clean.told (s := { s.w with time := t }) h (A.setTime _ _)
  have move : ∀ s : Sim F (Run F W V), Clean call record w₀ s.w → Sound call record w₀
      (let step : Nat := (s.step + 1) % 2 ^ 64
       let s := { s with step := step, time := Arith.lit (step : Rat) *. cfg.h }
       CALL s ((API).setTime s.w s.time) fun s _ =>
       CALL s (Run.apply call s.w (inp.continuous s.time false)) fun s _ =>
       if cfg.nx > 0 then
         let s := { s with x := eulerUpdate cfg.h cfg.nx s.x s.derX }
         CALL s ((API).setStates s.w s.x cfg.nx) fun s _ => detect API cfg occurred s
       else detect API cfg occurred s) :=
    fun s h => sound_CALL (time _ _ h) fun s _ h => sound_CALL (h.apply _) fun s _ h => sound_move A h
  unfold advanceWith
  dsimp only
  by_cases hn : cfg.nx > 0
  · rw [if_pos hn]
    exact sound_CALL (h.told (A.getDerivatives _ _ _)) fun s x h => move { s with derX := x } h
  · rw [if_neg hn]
    exact move s h

theorem sound_passesWith {s : Sim F (Run F W V)} (h : Clean call record w₀ s.w) : Sound call record w₀ (passesWith API (Run.apply call) inp cfg fuel n s) := by
  induction n with
  | zero => exact sound_ret h
  | succ n ih =>
    intro x e
    obtain ⟨⟨b, s1⟩, e1, e2⟩ := Outcome.bind_eq_ret.1 e
    have h1 := ih _ e1
    simp only [] at e2 h1
    split at e2
    · next hb =>
      subst hb
      have h : Clean call record w₀ s1.w := h1.elim id fun h => absurd h.1 (by decide)
      have rest : ∀ s : Sim F (Run F W V), Clean call record w₀ s.w → Sound call record w₀
          (if cfg.stopTime <=. s.time then .ret (false, s) else advanceWith API (Run.apply call) inp cfg (eventOccurredWith inp s1) s) := by
        intro s h
        split
        · exact sound_ret h
        · exact sound_advanceWith A h
      revert e2
      suffices hs : Sound call record w₀ (passWith API (Run.apply call) inp cfg fuel s1) from hs x
      unfold passWith
      simp only []
      split
      · exact sound_ret h
      · split
        · unfold handleWith
          dsimp only
          refine sound_CALL (h.told (A.enterEventMode _)) fun s _ h => ?_
          split
          · exact sound_CALL (h.apply _) fun s _ h => sound_CALL (h.apply _) fun s _ h => sound_iterate A (fun s a b h => sound_after A h rest a b) h
          · exact sound_iterate A (fun s a b h => sound_after A h rest a b) h
        · exact rest s1 h
    · cases e2
      exact h1.imp id fun h => ⟨rfl, h.2⟩

theorem sound_simulateWith {s : Run F W V} (h : Clean call record w₀ s) : Sound call record w₀ (simulateWith API (Run.apply call) inp cfg fuel n s) := by
  intro x e
  obtain ⟨⟨b, s1⟩, e1, e2⟩ := Outcome.bind_eq_ret.1 e
  have h1 := sound_initial A (s := Sim.start cfg s) h _ e1
  simp only [] at e2 h1
  split at e2
  · next hb =>
    subst hb
    exact sound_passesWith A (h1.elim id fun h => absurd h.1 (by decide)) _ e2
  · cases e2; exact h1.imp id fun h => ⟨rfl, h.2⟩

omit A in
/-- The end of the program. -/
theorem sound_tearDown {api : Importer.CoSim.Api F W O V} {record : List O} {s : Run F W V} (hs : Clean api.call record w₀ s ∨ Failed api.call w₀ s) {st : Status} {rows : List (Row F V)}
    (h : tearDown api s.w s.status s.rows = .ret (st, rows)) :
    (st = .OK → ∃ w w' v, Writes api.call record w₀ w rows ∧ api.call w api.terminate = .ret (w', .OK, v)) ∧ (st ≠ .OK → SomeCallFails api.call w₀) := by
  obtain ⟨rfl, h1, h2⟩ := tearDown_ret h
  refine ⟨fun e => ?_, fun e => ?_⟩
  · obtain ⟨h3, w', v, e3⟩ := h1 e
    rcases hs with hs | hs
    · exact ⟨_, _, _, hs.2, e3⟩
    · exact absurd h3 hs.1
  · rcases hs with hs | hs
    · rcases h2 e with h3 | ⟨w', s', v, e3, hs'⟩
      · exact absurd hs.1 h3
      · exact hs.2.fails e3 hs'
    · exact hs.2

end

end Verif
