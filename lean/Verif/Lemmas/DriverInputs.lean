import Verif.Spec.Inputs
import Verif.Lemmas.DriverME

/-!
# The programs for Model Exchange with inputs run to completion
-/

set_option linter.unusedSectionVars false

namespace Verif.Importer.Euler
open Verif CoSim

section
variable {F W V O : Type} [Arith F] [HasInf F]
variable {api : Api F W} {record : W → Outcome (W × Status × List V)} {cfg : Config F} {E C T : W → Prop} {J : EventInfo F → Prop} {P : List V → Prop}
variable {call : W → O → Outcome (W × Status × V)} {inp : Inputs F O}

/-- The inputs can be set in Continuous-Time Mode and in Event Mode. -/
structure Feeds (call : W → O → Outcome (W × Status × V)) (inp : Inputs F O) (E C : W → Prop) : Prop where
  continuousC : ∀ {w} t, C w → ∃ w' vs, calls call (inp.continuous t false) w = .ret (w', .OK, vs) ∧ C w'
  continuousE : ∀ {w} t, E w → ∃ w' vs, calls call (inp.continuous t true) w = .ret (w', .OK, vs) ∧ E w'
  discreteE : ∀ {w} t, E w → ∃ w' vs, calls call (inp.discrete t) w = .ret (w', .OK, vs) ∧ E w'

/-- Setting inputs. -/
theorem succeeds_apply {Q : Bool → Sim F (Run F W V) → Prop} {s : Sim F (Run F W V)} {ops : List O}
    {k : Sim F (Run F W V) → Unit → Result F (Run F W V)} {w vs} (h : calls call ops s.w.w = .ret (w, .OK, vs))
    (hk : Succeeds (k { s with w := { s.w with w := w, status := .OK } } ()) Q) : Succeeds (CALL s (Run.apply call s.w ops) k) Q :=
  Succeeds.call (w := w) (b := ()) (by rw [h]; rfl) hk

/-- The handling of events. -/
theorem handleWith_succeeds (D : Drives api record cfg E C T J P) (G : Feeds call inp E C) {fuel : Nat} (hf : 0 < fuel) {Q : Bool → Sim F (Run F W V) → Prop}
    {n : Nat} {rows : List F} {s : Sim F (Run F W V)} (h : AtStep cfg P C n rows s) {k : Sim F (Run F W V) → Result F (Run F W V)}
    (hk : ∀ s, AtStep cfg P C n (rows ++ [timeAfter cfg.h n]) s → Goes J s → Succeeds (k s) Q)
    (ht : ∀ s, AtStep cfg P T n rows s → J s.info → s.info.terminateSimulation = true → Q false s) :
    Succeeds (handleWith (watch api record) (Run.apply call) inp cfg fuel s k) Q := by
  unfold handleWith
  obtain ⟨w, e, hE⟩ := D.enterEM h.mode
  refine Succeeds.call e ?_
  have iteration : ∀ s, AtStep cfg P E n rows s → Succeeds (iterate (watch api record) (fun s nom val =>
      CALL s ((watch api record).enterContinuousTimeMode s.w) fun s _ =>
      CALL s ((watch api record).record s.w) fun s _ =>
      if (cfg.nx > 0 && val) = true then
        CALL s ((watch api record).getStates s.w s.x cfg.nx) fun s x =>
          (if (cfg.nx > 0 && nom) = true then
            CALL { s with x := x } ((watch api record).getNominals s.w s.nominals cfg.nx) fun s n => k { s with nominals := n }
          else k { s with x := x })
      else (if (cfg.nx > 0 && nom) = true then
            CALL s ((watch api record).getNominals s.w s.nominals cfg.nx) fun s n => k { s with nominals := n }
          else k s)) fuel s false false) Q := by
    intro s h
    refine iterate_succeeds D hf h ?_ ht
    intro s nom val h hi
    obtain ⟨w, e, hC⟩ := D.enterCT h.mode
    refine Succeeds.call e ?_
    refine succeeds_record D (h.to hC) fun w h => ?_
    have nominals : ∀ s : Sim F (Run F W V), AtStep cfg P C n (rows ++ [timeAfter cfg.h n]) s → Goes J s →
        Succeeds (if (cfg.nx > 0 && nom) = true then
          CALL s ((watch api record).getNominals s.w s.nominals cfg.nx) fun s n => k { s with nominals := n }
        else k s) Q := by
      intro s h hi
      split
      · next hx =>
        simp only [Bool.and_eq_true, decide_eq_true_eq] at hx
        obtain ⟨w', l', e', hC', hl'⟩ := D.getNominals h.mode hx.1 h.lens.nominals
        refine Succeeds.call e' ?_
        exact hk _ ⟨hC', rfl, h.wtime, h.time, h.step, ⟨h.lens.x, hl', h.lens.derX, h.lens.z, h.lens.previousZ⟩, h.rows, h.flags, h.values⟩ hi
      · exact hk _ h hi
    split
    · next hx =>
      simp only [Bool.and_eq_true, decide_eq_true_eq] at hx
      obtain ⟨w', l', e', hC', hl'⟩ := D.getStates h.mode hx.1 h.lens.x
      refine Succeeds.call e' ?_
      exact nominals _ ⟨hC', rfl, h.wtime, h.time, h.step, ⟨hl', h.lens.nominals, h.lens.derX, h.lens.z, h.lens.previousZ⟩, h.rows, h.flags, h.values⟩ hi
    · exact nominals _ h hi
  have h := h.to hE
  refine succeeds_ite (fun _ => ?_) fun _ => iteration _ h
  obtain ⟨w1, vs1, e1, h1⟩ := G.continuousE (s.time) h.mode
  refine succeeds_apply e1 ?_
  obtain ⟨w2, vs2, e2, h2⟩ := G.discreteE (s.time) h1
  refine succeeds_apply e2 ?_
  exact iteration _ ((h.to h1).to h2)

theorem advanceWith_succeeds (D : Drives api record cfg E C T J P) (G : Feeds call inp E C) {n : Nat} (hn : n + 1 < 2 ^ 64) {rows : List F}
    {s : Sim F (Run F W V)} (h : AtStep cfg P C n rows s) (hJ : J s.info) {occ : Bool} :
    Succeeds (advanceWith (watch api record) (Run.apply call) inp cfg occ s) fun b s =>
      b = true ∧ AtStep cfg P C (n + 1) (rows ++ [timeAfter cfg.h (n + 1)]) s ∧ Goes J s := by
  unfold advanceWith
  simp only []
  have move : ∀ s : Sim F (Run F W V), AtStep cfg P C n rows s → J s.info →
      Succeeds (CALL { s with step := (s.step + 1) % 2 ^ 64, time := Arith.lit (((s.step + 1) % 2 ^ 64 : Nat) : Rat) *. cfg.h }
        ((watch api record).setTime s.w (Arith.lit (((s.step + 1) % 2 ^ 64 : Nat) : Rat) *. cfg.h)) fun s _ =>
      CALL s (Run.apply call s.w (inp.continuous s.time false)) fun s _ =>
      if cfg.nx > 0 then
        CALL { s with x := eulerUpdate cfg.h cfg.nx s.x s.derX } ((watch api record).setStates s.w (eulerUpdate cfg.h cfg.nx s.x s.derX) cfg.nx)
          fun s _ => detect (watch api record) cfg occ s
      else detect (watch api record) cfg occ s) fun b s =>
      b = true ∧ AtStep cfg P C (n + 1) (rows ++ [timeAfter cfg.h (n + 1)]) s ∧ Goes J s := by
    intro s h hJ
    rw [h.step, Nat.mod_eq_of_lt hn]
    have ht : timeAfter cfg.h (n + 1) = Arith.lit ((n + 1 : Nat) : Rat) *. cfg.h := by simp [timeAfter]
    rw [← ht]
    obtain ⟨w0, e, hC0⟩ := D.setTime (k := n + 1) h.mode
    refine succeeds_setTime (s := { s with step := n + 1, time := timeAfter cfg.h (n + 1) }) e ?_
    obtain ⟨w, vs, ei, hC⟩ := G.continuousC (timeAfter cfg.h (n + 1)) hC0
    refine succeeds_apply (s := { s with step := n + 1, time := timeAfter cfg.h (n + 1), w := ⟨w0, .OK, timeAfter cfg.h (n + 1), s.w.rows⟩ }) ei ?_
    simp only []
    split
    · next hx =>
      have hl : (eulerUpdate cfg.h cfg.nx s.x s.derX).length = cfg.nx := by rw [eulerUpdate_length]; exact h.lens.x
      obtain ⟨w', e', hC'⟩ := D.setStates hC hx hl
      refine Succeeds.call (s := { s with step := n + 1, time := timeAfter cfg.h (n + 1), w := ⟨w, .OK, timeAfter cfg.h (n + 1), s.w.rows⟩, x := eulerUpdate cfg.h cfg.nx s.x s.derX }) e' ?_
      exact detect_succeeds D (n := n + 1) (s := { s with step := n + 1, time := timeAfter cfg.h (n + 1), w := ⟨w', .OK, timeAfter cfg.h (n + 1), s.w.rows⟩, x := eulerUpdate cfg.h cfg.nx s.x s.derX })
        ⟨hC', rfl, rfl, rfl, rfl, ⟨hl, h.lens.nominals, h.lens.derX, h.lens.z, h.lens.previousZ⟩, h.rows, h.flags, h.values⟩ hJ
    · exact detect_succeeds D (n := n + 1) (s := { s with step := n + 1, time := timeAfter cfg.h (n + 1), w := ⟨w, .OK, timeAfter cfg.h (n + 1), s.w.rows⟩ })
        ⟨hC, rfl, rfl, rfl, rfl, ⟨h.lens.x, h.lens.nominals, h.lens.derX, h.lens.z, h.lens.previousZ⟩, h.rows, h.flags, h.values⟩ hJ
  refine succeeds_ite (fun hx => ?_) fun _ => move _ h hJ
  obtain ⟨w', l', e', hC', hl'⟩ := D.getDerivatives h.mode hx h.lens.derX
  refine Succeeds.call e' ?_
  exact move { s with w := { s.w with w := w', status := .OK }, derX := l' }
    ⟨hC', rfl, h.wtime, h.time, h.step, ⟨h.lens.x, h.lens.nominals, hl', h.lens.z, h.lens.previousZ⟩, h.rows, h.flags, h.values⟩ hJ

/-- The FMU reports no events; there may be input events. -/
structure NoEvents (cfg : Config F) (J : EventInfo F → Prop) : Prop where
  indicators : cfg.nz = 0
  info : ∀ i, J i → i.nextEventTimeDefined = false ∧ i.terminateSimulation = false

/-- The times of the rows before pass `k`. -/
structure Rows (cfg : Config F) (J : EventInfo F → Prop) (inp : Inputs F O) (k : Nat) (l : List F) : Prop where
  covers : Covers True (timeAfter cfg.h) k l
  exact : NoEvents cfg J → l = inputTimes inp (timeAfter cfg.h) k

/-- The program is at the beginning of pass `k` through the loop. -/
structure AtPassWith (cfg : Config F) (P : List V → Prop) (C : W → Prop) (J : EventInfo F → Prop) (inp : Inputs F O) (k : Nat) (s : Sim F (Run F W V)) : Prop where
  rows : ∃ l, Rows cfg J inp k l ∧ AtStep cfg P C k (l ++ [timeAfter cfg.h k]) s
  info : Goes J s

/-- The program has ended. -/
structure EndedWith (cfg : Config F) (T : W → Prop) (J : EventInfo F → Prop) (inp : Inputs F O) (N : Nat) (s : Sim F (Run F W V)) : Prop where
  mode : T s.w.w
  status : s.w.status = .OK
  rows : ∃ k ≤ N + 1, Covers True (timeAfter cfg.h) k (s.w.rows.map Row.time) ∧
    (k = N + 1 ∧ Rows cfg J inp k (s.w.rows.map Row.time) ∨ J s.info ∧ s.info.terminateSimulation = true)

theorem passWith_succeeds (D : Drives api record cfg E C T J P) (G : Feeds call inp E C) {fuel : Nat} (hf : 0 < fuel) {N : Nat} (hN : N < 2 ^ 64)
    (hstop : ∀ k ≤ N, (cfg.stopTime <=. timeAfter cfg.h k) = decide (k = N)) {k : Nat} (hk : k ≤ N) {s : Sim F (Run F W V)}
    (h : AtPassWith cfg P C J inp k s) :
    Succeeds (passWith (watch api record) (Run.apply call) inp cfg fuel s) fun b s =>
      if b then k < N ∧ AtPassWith cfg P C J inp (k + 1) s else EndedWith cfg T J inp N s := by
  unfold passWith
  rw [h.info.2, if_neg (by simp)]
  simp only []
  obtain ⟨l, hl, hs⟩ := h.rows
  have rest : ∀ occ rows s, AtStep cfg P C k rows s → J s.info → Rows cfg J inp (k + 1) rows →
      Succeeds (if cfg.stopTime <=. s.time then .ret (false, s) else advanceWith (watch api record) (Run.apply call) inp cfg occ s) fun b s =>
        if b then k < N ∧ AtPassWith cfg P C J inp (k + 1) s else EndedWith cfg T J inp N s := by
    intro occ rows s hs hJ hr
    rw [hs.time, hstop k hk]
    by_cases hkN : k = N
    · rw [if_pos (by simpa using hkN)]
      refine .ret ?_
      rw [if_neg (by simp)]
      subst hkN
      exact ⟨D.stop hs.mode, hs.status, k + 1, Nat.le_refl _, by rw [hs.rows]; exact hr.covers, .inl ⟨rfl, by rw [hs.rows]; exact hr⟩⟩
    · rw [if_neg (by simpa using hkN)]
      refine (advanceWith_succeeds D G (by omega) hs hJ).mono ?_
      rintro b s ⟨rfl, h1, h2⟩
      rw [if_pos rfl]
      exact ⟨by omega, ⟨rows, hr, h1⟩, h2⟩
  have hocc : NoEvents cfg J → eventOccurredWith inp s = (inp.next (timeAfter cfg.h k) <=. timeAfter cfg.h k) := by
    intro hq
    have h1 := hq.info _ h.info.1
    have h2 := hs.flags
    simp [eventOccurredWith, inputEvent, h1, h2.1, h2.2 hq.indicators, hs.time]
  split
  · next ho =>
    refine handleWith_succeeds D G hf hs (fun s h1 h2 => rest _ _ s h1 h2.1 ⟨by rw [List.append_assoc]; exact .twice trivial hl.covers, fun hq => ?_⟩) fun s h1 h2 h3 => ?_
    · rw [hocc hq] at ho
      rw [hl.exact hq]
      simp [inputTimes, List.range_succ, List.flatMap_append, ho]
    · rw [if_neg (by simp)]
      exact ⟨h1.mode, h1.status, k + 1, by omega, by rw [h1.rows]; exact .once hl.covers, .inr ⟨h2, h3⟩⟩
  · next ho =>
    refine rest _ _ s hs h.info.1 ⟨.once hl.covers, fun hq => ?_⟩
    rw [hocc hq] at ho
    rw [hl.exact hq]
    simp [inputTimes, List.range_succ, List.flatMap_append, ho]

theorem passesWith_succeeds (D : Drives api record cfg E C T J P) (G : Feeds call inp E C) {fuel : Nat} (hf : 0 < fuel) {N : Nat} (hN : N < 2 ^ 64)
    (hstop : ∀ k ≤ N, (cfg.stopTime <=. timeAfter cfg.h k) = decide (k = N)) {s : Sim F (Run F W V)} (h : AtPassWith cfg P C J inp 0 s) (n : Nat) :
    Succeeds (passesWith (watch api record) (Run.apply call) inp cfg fuel n s) fun b s =>
      if b then n ≤ N ∧ AtPassWith cfg P C J inp n s else EndedWith cfg T J inp N s := by
  induction n with
  | zero => exact .ret (by rw [if_pos rfl]; exact ⟨Nat.zero_le _, h⟩)
  | succ n ih =>
    obtain ⟨b, s1, e, ih⟩ := ih
    unfold passesWith
    rw [e]
    simp only [Outcome.ret_bind]
    cases b
    · exact .ret (by simpa using ih)
    · simp only [if_true] at ih ⊢
      exact passWith_succeeds D G hf hN hstop ih.1 ih.2

/-- The program ends. -/
theorem simulateWith_succeeds (D : Drives api record cfg E C T J P) (G : Feeds call inp E C) {fuel : Nat} (hf : 0 < fuel) {N : Nat} (hN : N < 2 ^ 64)
    (hstop : ∀ k ≤ N, (cfg.stopTime <=. timeAfter cfg.h k) = decide (k = N)) {w : W} (h : E w) {n : Nat} (hn : N < n) :
    ∃ s, simulateWith (watch api record) (Run.apply call) inp cfg fuel n ⟨w, .OK, Arith.lit 0, []⟩ = .ret (false, s) ∧ EndedWith cfg T J inp N s := by
  obtain ⟨b, s1, e, hi⟩ := initial_succeeds D hf (s := Sim.start cfg ⟨w, .OK, Arith.lit 0, []⟩)
    ⟨h, rfl, rfl, rfl, rfl, ⟨by simp [Sim.start], by simp [Sim.start], by simp [Sim.start], by simp [Sim.start], by simp [Sim.start]⟩, rfl, ⟨rfl, fun _ => rfl⟩, by simp [Sim.start]⟩
  unfold simulateWith
  rw [e]
  simp only [Outcome.ret_bind]
  cases b
  · obtain ⟨h1, h2, h3⟩ : _ ∧ _ ∧ _ := by simpa using hi
    exact ⟨s1, rfl, h1.mode, h1.status, 0, by omega, by rw [h1.rows]; exact .zero, .inr ⟨h2, h3⟩⟩
  · simp only [if_true] at hi ⊢
    obtain ⟨b, s2, e2, h2⟩ := passesWith_succeeds (inp := inp) D G hf hN hstop ⟨⟨[], ⟨.zero, fun _ => rfl⟩, hi.1⟩, hi.2⟩ n
    cases b
    · exact ⟨s2, e2, by simpa using h2⟩
    · simp only [if_true] at h2
      omega

end
end Verif.Importer.Euler

namespace Verif

/-! ## FMI 2.0 -/

namespace FMI2
section
open Importer.Euler
variable {F D : Type} [Arith F] [HasInf F] {m : Model F D} {p : Profile F D} {c₀ : Comp F D} {inp : Inputs F (Op F)}

/-- Legal Set calls succeed and the mode stays. -/
theorem Ongoing.sets (hm : Describes m p) (hc : c₀.ctx.typ = .modelExchange) (hn : p.needs c₀.ctx) {mode : Mode} {w : World F D}
    (h : Ongoing m p c₀ mode w) {ops : List (Op F)} (hs : ∀ op ∈ ops, Sets m p mode op) :
    ∃ w' vs, AllOK (FMI2.step m 0) w ops w' vs ∧ Ongoing m p c₀ mode w' :=
  AllOK.of_inv (call := FMI2.step m 0) (os := ops) (Q := Ongoing m p c₀ mode) (fun op hop w h => by
    obtain ⟨hf, hmode, ha⟩ := hs op hop
    obtain ⟨a1, a2⟩ := ha w (h.toSession.typ hc) h.state
    simp only [List.mem_cons, List.not_mem_nil, or_false] at hf
    obtain ⟨w', o, e, k1, k2⟩ := h.toSession.step hm hc hn (by rcases hf with hf | hf | hf | hf <;> simp [hf])
      (by rcases hf with hf | hf | hf | hf <;> simp [hf]) hmode a1 a2
    refine ⟨w', o, e, ?_, k2 (by rcases hf with hf | hf | hf | hf <;> simp [hf]) h.over⟩
    rcases hf with hf | hf | hf | hf <;> (rw [hf] at k1; exact k1)) h

theorem feeds (hm : Describes m p) (hc : c₀.ctx.typ = .modelExchange) (hn : p.needs c₀.ctx) (hi : LegalInputs m p inp) :
    Feeds (FMI2.step m 0) inp (Ongoing m p c₀ .eventMode) (Ongoing m p c₀ .continuousTimeMode) where
  continuousC t h := by
    obtain ⟨w', vs, h1, h2⟩ := h.sets hm hc hn (fun op hop => hi.continuous t false op hop _ (by simp))
    exact ⟨w', vs, h1.calls, h2⟩
  continuousE t h := by
    obtain ⟨w', vs, h1, h2⟩ := h.sets hm hc hn (fun op hop => hi.continuous t true op hop _ (by simp))
    exact ⟨w', vs, h1.calls, h2⟩
  discreteE t h := by
    obtain ⟨w', vs, h1, h2⟩ := h.sets hm hc hn (fun op hop => hi.discrete t op hop _ (by simp))
    exact ⟨w', vs, h1.calls, h2⟩

theorem startedWith (hm : Describes m p) {resource : Ptr UInt8} {l} {c : Comp F D}
    (hc : instantiate m (some "instance1") .modelExchange (some m.token) resource (some true) false true = (some c, l))
    (hn : p.needs c.ctx) (hi : LegalInputs m p inp) {stop : F} :
    ∃ w vs, AllOK (FMI2.step m 0) (.fresh c) (inp.start ++ [.setupExperiment (Arith.lit 0) true stop, .enterInitializationMode] ++
      inp.continuous (Arith.lit 0) false ++ inp.discrete (Arith.lit 0) ++ [.exitInitializationMode]) w vs ∧ Ongoing m p c .eventMode w := by
  have hc' : createModelInstance m false true false (some "instance1") (some m.token) resource false true .modelExchange = (some c, l) := hc
  have ht := (createModelInstance_ctx hc').1
  have ha : Session m c .instantiated (.fresh c) := ⟨⟨_, _, _, _, _, _, c, l, _, 0, [], [], hc, ⟨rfl, fun _ => rfl, fun _ _ e => by cases e⟩, rfl⟩,
    WInv.fresh ⟨⟨rfl, rfl, rfl, rfl, rfl⟩, rfl, rfl⟩, (createModelInstance_ctx hc').2.1⟩
  have hov : ¬p.over (World.fresh c).inst.mv.data := by
    change ¬p.over c.mv.data
    rw [createModelInstance_mv hc']
    cases hm
    case stair => exact fun h => absurd h (by change ¬((10 : Int) ≤ 1); decide)
    all_goals exact fun h => h
  obtain ⟨w₁, vs₁, e₁, a₁⟩ := Ongoing.sets hm ht hn ⟨ha, hov⟩ hi.start
  obtain ⟨w₂, o₂, e₂, a₂, k₂⟩ := a₁.toSession.step hm ht hn (op := .setupExperiment (Arith.lit 0) true stop) (by simp [Op.fn]) (by simp [Op.fn])
    (by simp [Op.fn, Spec.allowedIn]) trivial trivial
  obtain ⟨w₃, o₃, e₃, a₃, k₃⟩ := a₂.step hm ht hn (op := .enterInitializationMode) (by simp [Op.fn]) (by simp [Op.fn])
    (by simp [Op.fn, Spec.allowedIn, Spec.nextMode]) trivial trivial
  have b₃ : Ongoing m p c .initializationMode w₃ := ⟨a₃, k₃ (by simp [Op.fn]) (k₂ (by simp [Op.fn]) a₁.over)⟩
  obtain ⟨w₅, vs₅, e₅, a₅⟩ := b₃.sets hm ht hn (fun op hop => hi.continuous (Arith.lit 0) false op hop _ (by simp))
  obtain ⟨w₆, vs₆, e₆, a₆⟩ := a₅.sets hm ht hn (fun op hop => hi.discrete (Arith.lit 0) op hop _ (by simp))
  obtain ⟨w₄, o₄, e₄, a₄, k₄⟩ := a₆.toSession.step hm ht hn (op := .exitInitializationMode) (by simp [Op.fn]) (by simp [Op.fn])
    (by simp [Op.fn, Spec.allowedIn]) trivial trivial
  exact ⟨w₄, _, (((e₁.append (.cons e₂ (.cons e₃ .nil))).append e₅).append e₆).append (.cons e₄ .nil), a₄, k₄ (by simp [Op.fn]) a₆.over⟩

end
end FMI2

/-! ## FMI 3.0 -/

namespace FMI3
section
open Importer.Euler
variable {F D : Type} [Arith F] [HasInf F] {m : Model F D} {p : Profile F D} {c₀ : Comp F D} {inp : Inputs F (Op F)}

/-- Legal Set calls succeed and the mode stays. -/
theorem Ongoing.sets (hm : Describes m p) (hc : c₀.ctx.typ = .modelExchange) (hn : p.needs c₀.ctx) {mode : Mode} {w : World F D}
    (h : Ongoing m p c₀ mode w) {ops : List (Op F)} (hs : ∀ op ∈ ops, Sets m p mode op) :
    ∃ w' vs, AllOK (FMI3.step m 0) w ops w' vs ∧ Ongoing m p c₀ mode w' :=
  AllOK.of_inv (call := FMI3.step m 0) (os := ops) (Q := Ongoing m p c₀ mode) (fun op hop w h => by
    obtain ⟨⟨t, hf⟩, hmode, ha⟩ := hs op hop
    obtain ⟨a1, a2⟩ := ha w (h.toSession.typ hc) h.state
    obtain ⟨w', o, e, k1, k2⟩ := h.toSession.step hm hc hn (by simp [hf]) (by simp [hf]) hmode a1 a2
    refine ⟨w', o, e, ?_, k2 (by simp [hf]) h.over⟩
    rw [hf] at k1; exact k1) h

theorem feeds (hm : Describes m p) (hc : c₀.ctx.typ = .modelExchange) (hn : p.needs c₀.ctx) (hi : LegalInputs m p inp) :
    Feeds (FMI3.step m 0) inp (Ongoing m p c₀ .eventMode) (Ongoing m p c₀ .continuousTimeMode) where
  continuousC t h := by
    obtain ⟨w', vs, h1, h2⟩ := h.sets hm hc hn (fun op hop => hi.continuous t false op hop _ (by simp))
    exact ⟨w', vs, h1.calls, h2⟩
  continuousE t h := by
    obtain ⟨w', vs, h1, h2⟩ := h.sets hm hc hn (fun op hop => hi.continuous t true op hop _ (by simp))
    exact ⟨w', vs, h1.calls, h2⟩
  discreteE t h := by
    obtain ⟨w', vs, h1, h2⟩ := h.sets hm hc hn (fun op hop => hi.discrete t op hop _ (by simp))
    exact ⟨w', vs, h1.calls, h2⟩

theorem startedWith (hm : Describes m p) {resource : Ptr UInt8} {l} {c : Comp F D}
    (hc : instantiateModelExchange m (some "instance1") (some m.token) resource false true true = (some c, l))
    (hn : p.needs c.ctx) (hi : LegalInputs m p inp) {stop : F} :
    c.ctx.typ = .modelExchange ∧ ∃ w vs, AllOK (FMI3.step m 0) (.fresh c) (inp.start ++ [.enterInitializationMode (Arith.lit 0) true stop] ++
      inp.continuous (Arith.lit 0) false ++ inp.discrete (Arith.lit 0) ++ [.exitInitializationMode]) w vs ∧ Ongoing m p c .eventMode w := by
  have hprops : ¬p.over c.mv.data ∧ c.ctx.typ = .modelExchange ∧ c.ctx.state = .instantiated := by
    cases hm
    case stair => cases hc; exact ⟨fun h => absurd h (by change ¬((10 : Int) ≤ 1); decide), rfl, rfl⟩
    case clocks => cases hc
    all_goals cases hc; exact ⟨fun h => h, rfl, rfl⟩
  obtain ⟨hov, ht, hst⟩ := hprops
  have ha : Session m c .instantiated (.fresh c) := ⟨⟨c, _, 0, [], [], .me hc, ⟨rfl, fun _ => rfl, fun _ _ e => by cases e⟩, rfl⟩,
    WInv.fresh ⟨⟨rfl, rfl, rfl, rfl, rfl⟩, rfl, rfl⟩, hst⟩
  obtain ⟨w₁, vs₁, e₁, a₁⟩ := Ongoing.sets hm ht hn ⟨ha, hov⟩ hi.start
  obtain ⟨w₃, o₃, e₃, a₃, k₃⟩ := a₁.toSession.step hm ht hn (op := .enterInitializationMode (Arith.lit 0) true stop) (by simp [Op.fn]) (by simp [Op.fn])
    (by simp [Op.fn, Spec.allowedIn]) trivial trivial
  have b₃ : Ongoing m p c .initializationMode w₃ := ⟨a₃, k₃ (by simp [Op.fn]) a₁.over⟩
  obtain ⟨w₅, vs₅, e₅, a₅⟩ := b₃.sets hm ht hn (fun op hop => hi.continuous (Arith.lit 0) false op hop _ (by simp))
  obtain ⟨w₆, vs₆, e₆, a₆⟩ := a₅.sets hm ht hn (fun op hop => hi.discrete (Arith.lit 0) op hop _ (by simp))
  obtain ⟨w₄, o₄, e₄, a₄, k₄⟩ := a₆.toSession.step hm ht hn (op := .exitInitializationMode) (by simp [Op.fn]) (by simp [Op.fn])
    (by simp [Op.fn, Spec.allowedIn]) trivial trivial
  exact ⟨ht, w₄, _, (((e₁.append (.cons e₃ .nil)).append e₅).append e₆).append (.cons e₄ .nil), a₄, k₄ (by simp [Op.fn]) a₆.over⟩

end
end FMI3
end Verif
