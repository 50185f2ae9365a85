import Verif.Spec.Simulation
import Verif.Lemmas.Success
import Verif.Lemmas.Restart
import Verif.Props.C24
import Verif.Props.C20
import Verif.Lemmas.Cut

/-!
# The programs for Co-Simulation run to completion
-/

set_option linter.unusedSectionVars false

namespace Verif
open Importer.CoSim

section
variable {F W O V : Type} {call : W → O → Outcome (W × Status × V)}

theorem AllOK.calls {w w' : W} {os : List O} {vs : List V} (h : AllOK call w os w' vs) :
    calls call os w = .ret (w', .OK, vs) := by
  induction h with
  | nil => rfl
  | cons e _ ih => simp [Importer.CoSim.calls, e, ih]

theorem AllOK.append {w w₁ w₂ : W} {a b : List O} {u v : List V} (h : AllOK call w a w₁ u) (h' : AllOK call w₁ b w₂ v) :
    AllOK call w (a ++ b) w₂ (u ++ v) := by
  induction h with
  | nil => exact h'
  | cons e _ ih => exact .cons e (ih h')

/-- If every call succeeds and keeps `Q`, all do. -/
theorem AllOK.of_inv {Q : W → Prop} : ∀ {os : List O}, (∀ o ∈ os, ∀ w, Q w → ∃ w' v, call w o = .ret (w', .OK, v) ∧ Q w') →
    ∀ {w : W}, Q w → ∃ w' vs, AllOK call w os w' vs ∧ Q w' := by
  intro os
  induction os with
  | nil => exact fun _ w hw => ⟨w, [], .nil, hw⟩
  | cons o os ih =>
    intro h w hw
    obtain ⟨w₁, v, e, hw⟩ := h o (by simp) w hw
    obtain ⟨w₂, vs, h', hw⟩ := ih (fun o ho => h o (by simp [ho])) hw
    exact ⟨w₂, _, .cons e h', hw⟩

variable [Arith F]

/-- What is needed of the API and of the invariant `Inv k` at the communication point `k`. -/
structure Drives (api : Api F W O V) (goes : W → F → W → Prop) (ends : W → F → List (Row F V) → Prop) (P : Program F O) (N : Nat)
    (Inv : Nat → W → Prop) : Prop where
  record : ∀ {k w}, k ≤ N → Inv k w → ∃ w' vs, AllOK api.call w P.record w' vs ∧ Inv k w'
  inputs : ∀ {k w}, k ≤ N → Inv k w → ∃ w' vs, AllOK api.call w (P.inputs (P.point k)) w' vs ∧ Inv k w'
  terminate : ∀ {k w}, k ≤ N → Inv k w → ∃ w' v, api.call w api.terminate = .ret (w', .OK, v)
  advance : ∀ {k w}, k < N → Inv k w →
    (∃ w', api.advance w (P.point k) = .ret (w', .OK, .goOn) ∧ goes w (P.point k) w' ∧ Inv (k + 1) w') ∨
    (∃ w' w'' v, api.advance w (P.point k) = .ret (w', .OK, .stop none) ∧ ends w (P.point k) [] ∧
      api.call w' api.terminate = .ret (w'', .OK, v)) ∨
    (∃ w' w₁ w'' t vs v, api.advance w (P.point k) = .ret (w', .OK, .stop (some t)) ∧ AllOK api.call w' P.record w₁ vs ∧
      ends w (P.point k) [⟨t, vs⟩] ∧ api.call w₁ api.terminate = .ret (w'', .OK, v))

variable {api : Api F W O V} {goes : W → F → W → Prop} {ends : W → F → List (Row F V) → Prop} {P : Program F O} {N : Nat}
  {Inv : Nat → W → Prop}

theorem tearDown_ok {w w' : W} {v} {rows : List (Row F V)} (h : api.call w api.terminate = .ret (w', .OK, v)) :
    tearDown api w .OK rows = .ret (.OK, rows) := by
  simp [tearDown, h, Status.rank]

theorem CALLS_ok {ops : List O} {w w' : W} {vs} {rows : List (Row F V)} {k} (h : AllOK api.call w ops w' vs) :
    CALLS api ops w rows k = k w' vs := by
  simp [CALLS, h.calls]

theorem Drives.loop (h : Drives api goes ends P N Inv)
    (hstop : ∀ k ≤ N, (P.stopTime <=. P.point k) = decide (k = N)) {w₀ : W} :
    ∀ {n k : Nat} {w : W} {rows : List (Row F V)}, k ≤ N → N < k + n → Proceeds api.call goes P w₀ k w rows → Inv k w →
      ∃ rows', loop api P n k w rows = .ret (.OK, rows') ∧ Simulated api.call goes ends P w₀ N rows' := by
  intro n
  induction n with
  | zero => intro k w rows h1 h2; omega
  | succ n ih =>
    intro k w rows hk hn hp hi
    obtain ⟨w₁, vs, h1, hi⟩ := h.record hk hi
    obtain ⟨w₂, us, h2, hi⟩ := h.inputs hk hi
    have hv : Visits api.call P k w w₂ ⟨P.point k, vs⟩ := ⟨rfl, w₁, us, h1, h2⟩
    unfold Importer.CoSim.loop
    simp only []
    rw [CALLS_ok h1]
    change ∃ rows', CALLS api (P.inputs (P.point k)) w₁ _ _ = _ ∧ _
    rw [CALLS_ok h2]
    change ∃ rows', (if (P.stopTime <=. P.point k) = true then _ else _) = _ ∧ _
    rw [hstop k hk]
    by_cases hkN : k = N
    · subst hkN
      obtain ⟨w₃, v, h3⟩ := h.terminate hk hi
      rw [if_pos (by simp), tearDown_ok h3]
      exact ⟨_, rfl, .complete hp hv⟩
    · rw [if_neg (by simpa using hkN)]
      have hlt : k < N := by omega
      rcases h.advance hlt hi with ⟨w', ha, hg, hi'⟩ | ⟨w', w'', v, ha, he, ht⟩ | ⟨w', w₃, w'', t, vs', v, ha, hr, he, ht⟩
      · change ∃ rows', (api.advance w₂ (P.point k) >>- _) = _ ∧ _
        rw [ha]
        simp only [Outcome.ret_bind, if_true]
        exact ih (by omega) (by omega) (.succ hp hv hg) hi'
      · change ∃ rows', (api.advance w₂ (P.point k) >>- _) = _ ∧ _
        rw [ha]
        simp only [Outcome.ret_bind, if_true]
        rw [tearDown_ok ht]
        exact ⟨_, rfl, .ended hlt hp hv he⟩
      · change ∃ rows', (api.advance w₂ (P.point k) >>- _) = _ ∧ _
        rw [ha]
        simp only [Outcome.ret_bind, if_true]
        rw [CALLS_ok hr, tearDown_ok ht]
        refine ⟨_, rfl, ?_⟩
        have := Simulated.ended hlt hp hv he
        rw [List.append_assoc]
        exact this

end

/-! ## The ends of steps -/

theorem FMI2.Loop.ongoing {F D : Type} [Arith F] {m : Model F D} {p : Profile F D} {o : Ode m} (hl : Lawful m p) (ho : Ongoing p o) {next : F}
    {c c' : Comp F D} {n s} (h : Loop m next c n c' s) (hr : o.Ready c) (hp : ¬p.over c.mv.data) : s = .OK → ¬p.over c'.mv.data := by
  induction h with
  | done => exact fun _ => hp
  | step _ e ht _ ih =>
    obtain ⟨-, r, h⟩ := iter_ok hl ho hr hp e
    exact ih r (h ht)
  | discard => intro h; cases h
  | error => intro h; cases h

theorem FMI3.iter_leaves {F D : Type} [Arith F] {m : Model F D} {c c' : Comp F D} {ehn b} (h : iter m c ehn = .ret (c', .OK, (b, true)))
    (hm : OkOrError m) (he : c.earlyReturnAllowed = false) : c'.mv.terminateSimulation = true := by
  have f := (iter_frame hm h).era.trans he
  rcases iter_eq_ret hm h with ⟨-, c0, ehn0, c1, se, te, ep, e1, h⟩ | ⟨h, -⟩
  · rcases h with ⟨-, rfl, h⟩ | ⟨-, -, -, rfl, h⟩ | ⟨eu, -, -, -, -, h⟩
    · exact (congrArg Prod.snd h).symm
    · have h := (congrArg Prod.snd h).symm
      rwa [f, Bool.false_or] at h
    · have h := (congrArg Prod.snd h).symm
      rwa [f, Bool.false_or] at h
  · cases h

theorem FMI3.Loop.ongoing {F D : Type} [Arith F] {m : Model F D} {p : Profile F D} {o : Ode m} (hl : Lawful m p) (ho : Ongoing p o) (hm : OkOrError m)
    {next : F} {c c' : Comp F D} {ehn n s e r} (h : Loop m next c ehn n c' s e r) (hr : o.Ready c) (hc : c.eventModeUsed = false)
    (hc' : c.earlyReturnAllowed = false) (hehn : ehn = false) (hp : ¬p.over c.mv.data) :
    s = .OK → c'.mv.terminateSimulation = false → r = true ∧ ¬p.over c'.mv.data := by
  induction h with
  | done h =>
    subst hehn
    rw [Bool.false_and, Bool.or_false] at h
    exact fun _ _ => ⟨h, hp⟩
  | step _ e _ ih =>
    obtain ⟨-, r, h⟩ := iter_ok hl ho hm hr (fun _ => ⟨hehn, hp⟩) e
    have f := iter_frame hm e
    have f1 := f.emu.trans hc
    have f2 := f.era.trans hc'
    obtain ⟨h1, h2⟩ := h rfl f1
    exact ih r f1 f2 h1 h2
  | leave _ e => intro _ h; rw [iter_leaves e hm hc'] at h; cases h
  | error => intro h; cases h


/-! ## What calls keep -/

section
variable {F D : Type} [Arith F] [HasInf F] {m : Model F D} {p : Profile F D}

theorem FMI2.Describes.needs_kept (h : FMI2.Describes m p) {c d : Ctx F} (hr : d.resourceLocation = c.resourceLocation) (hn : p.needs c) :
    p.needs d := by
  cases h <;> first | exact trivial | (obtain ⟨path, b, h⟩ := hn; exact ⟨path, b, hr ▸ h⟩)

theorem FMI3.Describes.needs_kept (h : FMI3.Describes m p) {c d : Ctx F} (hr : d.resourceLocation = c.resourceLocation) (hn : p.needs c) :
    p.needs d := by
  cases h <;> first | exact trivial | (obtain ⟨path, b, h⟩ := hn; exact ⟨path, b, hr ▸ h⟩)

theorem FMI2.stairLim9 : FMI2.CallInvX (fun fn => fn ∈ [FMI2.Fn.doStep, .newDiscreteStates, .setFMUstate]) (fun f => f ≠ .event)
    (Stair.model : Model F Stair.Data) (fun _ => True) (Stair.Lim 9) where
  toQuiet := Stair.lim_quiet (by omega)
  calls := by
    intro fn hX f hf
    cases fn <;> simp [FMI2.Fn.calls] at hX hf ⊢ <;> first | (subst hf; simp) | (rcases hf with rfl | rfl <;> simp)
  step h := absurd (by simp) h
  nx _ _ h := h
  nz _ _ h := h
  prez _ _ _ h := h
  term h := h
  setup _ _ _ _ h _ := h
  enterInit _ _ h _ := h
  reset _ c _ := by
    unfold Verif.reset
    refine Outcome.all_ret.2 ?_
    show _ ≤ _
    simp [Comp.setState, Comp.setTime, Comp.setDirty, Stair.model, Stair.setStartValues]
  restore h := absurd (by simp) h
  enterEvent _ _ h _ := h
  enterCT _ _ h _ := h
  setTime _ _ _ h _ := h
  exitInit _ _ h _ := h

theorem FMI3.stairLim9 : FMI3.CallInvX (fun fn => fn ∈ [FMI3.Fn.doStep, .updateDiscreteStates, .setFMUState]) (fun f => f ≠ .event)
    (Stair.model : Model F Stair.Data) (fun _ => True) (Stair.Lim 9) where
  toQuiet := Stair.lim_quiet (by omega)
  calls := by
    intro fn hX f hf
    cases fn <;> simp [FMI3.Fn.calls] at hX hf ⊢ <;> first | (subst hf; simp) | (rcases hf with rfl | rfl <;> simp)
  step h := absurd (by simp) h
  nx _ _ h := h
  nz _ _ h := h
  prez _ _ _ h := h
  term h := h
  enterInit _ _ _ _ h _ := h
  enterConfig _ _ h _ := h
  exitConfig _ _ h _ := h
  reset _ c _ := by
    unfold Verif.reset
    refine Outcome.all_ret.2 ?_
    show _ ≤ _
    simp [Comp.setState, Comp.setTime, Comp.setDirty, Stair.model, Stair.setStartValues]
  restore h := absurd (by simp) h
  enterEvent _ _ h _ := h
  enterCT _ _ h _ := h
  setTime _ _ _ h _ := h
  enterStep _ _ h _ := h
  exitInit _ _ h _ := h

/-- Only events and restored states end the simulation. -/
theorem FMI2.Describes.over_kept (h : FMI2.Describes m p) {fuel : Nat} {w w' : FMI2.World F D} {op : FMI2.Op F} {s o}
    (e : FMI2.step m fuel w op = .ret (w', s, o)) (hX : op.fn ∉ [FMI2.Fn.doStep, .newDiscreteStates, .setFMUstate])
    (hp : ¬p.over w.inst.mv.data) : ¬p.over w'.inst.mv.data := by
  cases h
  case stair =>
    have h9 : Stair.Lim 9 w.inst := by
      have : ¬ 10 ≤ w.inst.mv.data.counter := hp
      show _ ≤ _; omega
    have := FMI2.step_keepX Stair.eff.okOrError FMI2.stairLim9 (fun _ _ _ _ => trivial) h9 (fun _ {c} _ _ h => h) hX _ e
    have : w'.inst.mv.data.counter ≤ 9 := this
    show ¬ 10 ≤ _
    omega
  all_goals exact fun h => h

/-- Only events and restored states end the simulation. -/
theorem FMI3.Describes.over_kept (h : FMI3.Describes m p) {fuel : Nat} {w w' : FMI3.World F D} {op : FMI3.Op F} {s o}
    (e : FMI3.step m fuel w op = .ret (w', s, o)) (hX : op.fn ∉ [FMI3.Fn.doStep, .updateDiscreteStates, .setFMUState])
    (hp : ¬p.over w.inst.mv.data) : ¬p.over w'.inst.mv.data := by
  cases h
  case stair =>
    have h9 : Stair.Lim 9 w.inst := by
      have : ¬ 10 ≤ w.inst.mv.data.counter := hp
      show _ ≤ _; omega
    have := FMI3.step_keepX Stair.eff.okOrError FMI3.stairLim9 (fun _ _ _ _ => trivial) h9 (fun _ {c} _ _ h => h) hX _ e
    have : w'.inst.mv.data.counter ≤ 9 := this
    show ¬ 10 ≤ _
    omega
  all_goals exact fun h => h

end

/-! ## FMI 2.0 -/

theorem Ticks.of_times {D : Type} {h s t : Rat} {c c' : Comp XRat D} (hT : Ticks h s t c) (e : c'.times = c.times) : Ticks h s t c' := by
  have h1 : c'.startTime = c.startTime := congrArg Times.startTime e
  have h2 : c'.ctx.time = c.ctx.time := congrArg Times.time e
  have h3 : c'.nSteps = c.nSteps := congrArg Times.nSteps e
  exact ⟨h1.trans hT.start, h2.trans hT.time, by rw [h3]; exact hT.grid⟩

theorem Ticks.advanced {D : Type} {h s t : Rat} {c c' : Comp XRat D} {n : Nat} (hT : Ticks h s t c)
    (a : Advanced (.fin h) c.times c'.times n) (hn : c.nSteps + n < 2 ^ 64) : (∃ t', Ticks h s t' c') ∧ c'.nSteps = c.nSteps + n := by
  have h1 : c'.startTime = c.startTime := a.startTime
  have h2 : c'.nSteps = if n = 0 then c.nSteps else (c.nSteps + n) % 2 ^ 64 := a.nSteps
  have h3 : c'.ctx.time = if n = 0 then c.ctx.time else gridPoint c.startTime (.fin h) c'.nSteps := a.time
  have e : c'.nSteps = c.nSteps + n := by
    rw [h2]; split
    · omega
    · exact Nat.mod_eq_of_lt hn
  refine ⟨?_, e⟩
  by_cases h0 : n = 0
  · subst h0
    rw [if_pos rfl] at h3
    exact ⟨t, h1.trans hT.start, h3.trans hT.time, by rw [e]; exact hT.grid⟩
  · rw [if_neg h0, hT.start] at h3
    exact ⟨_, h1.trans hT.start, h3.trans rfl, rfl⟩

namespace FMI2
section
variable {F D : Type} [Arith F] [HasInf F] {m : Model F D} {p : Profile F D} {c₀ : Comp F D}

/-- A Co-Simulation instance in the mode, created as `c₀`. -/
structure Alive (m : Model F D) (c₀ : Comp F D) (mode : Mode) (w : World F D) : Prop where
  reach : Reachable m .coSimulation w
  kept : WInv c₀.Kept w
  state : w.inst.ctx.state = mode

theorem Alive.typ {mode : Mode} {w : World F D} (h : Alive m c₀ mode w) (hc : c₀.ctx.typ = .coSimulation) :
    w.inst.ctx.typ = .coSimulation := h.kept.inst.1.1.trans hc

theorem Alive.step (hm : Describes m p) (hc : c₀.ctx.typ = .coSimulation) (hn : p.needs c₀.ctx) {mode : Mode} {w : World F D}
    (h : Alive m c₀ mode w) {op : Op F} (hX : op.fn ∉ [Fn.doStep, .newDiscreteStates, .setFMUstate]) (hs : mode ∈ Spec.allowedIn op.fn)
    (ha : Args m p w op) (wf : WellFormed w op) (fuel : Nat) :
    ∃ w' o, FMI2.step m fuel w op = .ret (w', .OK, o) ∧ Alive m c₀ (Spec.nextMode op.fn .coSimulation mode) w' ∧
      (¬p.over w.inst.mv.data → ¬p.over w'.inst.mv.data) ∧ w'.inst.times = timesAfter w op .OK := by
  have hok := hm.ref.eff.okOrError
  have hn' : p.needs w.inst.ctx := hm.needs_kept h.kept.inst.1.2.1 hn
  have hd : op.fn ≠ .doStep := fun e => hX (by simp [e])
  obtain ⟨⟨w', s, o⟩, e⟩ := legal_ret hm h.reach hd wf fuel
  obtain rfl := (C61 hm hn' hd (fun e => absurd e fun e => hX (by simp [e])) e).2 ⟨by rw [h.state]; exact hs, ha⟩
  refine ⟨w', o, e, ⟨h.reach.call hok e, step_inv hok (FMI2.kept m c₀) h.kept op _ e, ?_⟩, fun hp => hm.over_kept e hX hp, step_times hok hd _ e⟩
  obtain ⟨-, h1 | ⟨-, -, h1⟩⟩ := step_mode' hok _ e
  · cases h1.1
  · simp only at h1
    rw [h1]
    unfold Spec.modeAfter
    split
    · exact absurd (by simp [Op.fn]) hX
    · rw [h.typ hc, h.state]

/-- Getting and setting variables. -/
theorem Alive.access (hm : Describes m p) (hc : c₀.ctx.typ = .coSimulation) (hn : p.needs c₀.ctx) {mode : Mode} {w : World F D}
    (h : Alive m c₀ mode w) {op : Op F} (ha : Access m p mode op) (fuel : Nat) :
    ∃ w' o, FMI2.step m fuel w op = .ret (w', .OK, o) ∧ Alive m c₀ mode w' ∧
      (¬p.over w.inst.mv.data → ¬p.over w'.inst.mv.data) ∧ w'.inst.times = w.inst.times := by
  obtain ⟨h1, h2, h3⟩ := ha
  obtain ⟨h3, h4⟩ := h3 w (h.typ hc) h.state
  obtain ⟨w', o, e, k1, k2, k3⟩ := h.step hm hc hn (by intro h; simp at h; rcases h with h | h | h <;> simp [h] at h1) h2 h3 h4 fuel
  refine ⟨w', o, e, ?_, k2, ?_⟩
  · have : Spec.nextMode op.fn .coSimulation mode = mode := by
      simp only [List.mem_cons, List.not_mem_nil, or_false] at h1
      rcases h1 with h | h | h | h | h | h | h | h <;> rw [h] <;> rfl
    rwa [this] at k1
  · rw [k3]
    unfold timesAfter
    rw [if_pos rfl]
    cases op <;> first | rfl | (exfalso; simp [Op.fn] at h1)

end

section
variable {D : Type} {m : Model XRat D} {p : Profile XRat D} {c₀ : Comp XRat D}

/-- The instance at the communication point `k`. -/
structure Running (m : Model XRat D) (p : Profile XRat D) (c₀ : Comp XRat D) (hh h stop : Rat) (fuel k : Nat) (w : World XRat D) : Prop where
  alive : Alive m c₀ .stepComplete w
  over : ¬p.over w.inst.mv.data
  clock : w.inst.clock = ⟨.fin (k * h), .fin stop⟩
  ticks : ∃ t, Ticks hh 0 t w.inst
  steps : w.inst.nSteps ≤ fuel * k

theorem Running.access (hm : Describes m p) (hc : c₀.ctx.typ = .coSimulation) (hn : p.needs c₀.ctx) {hh h stop : Rat} {fuel k : Nat}
    {w : World XRat D} (hr : Running m p c₀ hh h stop fuel k w) {op : Op XRat} (ha : Access m p .stepComplete op) :
    ∃ w' o, FMI2.step m fuel w op = .ret (w', .OK, o) ∧ Running m p c₀ hh h stop fuel k w' := by
  obtain ⟨w', o, e, k1, k2, k3⟩ := hr.alive.access hm hc hn ha fuel
  obtain ⟨t, hT⟩ := hr.ticks
  refine ⟨w', o, e, k1, k2 hr.over, ?_, ⟨t, hT.of_times k3⟩, ?_⟩
  · rw [clock_of_times k3]; exact hr.clock
  · have : w'.inst.nSteps = w.inst.nSteps := congrArg Times.nSteps k3
    rw [this]; exact hr.steps

theorem Alive.terminate (hm : Describes m p) (hc : c₀.ctx.typ = .coSimulation) (hn : p.needs c₀.ctx) {w : World XRat D}
    (h : Alive m c₀ .stepComplete w) (fuel : Nat) : ∃ w' o, FMI2.step m fuel w .terminate = .ret (w', .OK, o) := by
  obtain ⟨w', o, e, -⟩ := h.step hm hc hn (op := .terminate) (by simp [Op.fn]) (by simp [Op.fn, Spec.allowedIn]) trivial trivial fuel
  exact ⟨w', o, e⟩

/-- A step from the communication point `k` on. -/
theorem Running.doStep (hm : Describes m p) {hh h : Rat} (hh' : m.h = .fin hh) (h0 : 0 < h) {N fuel K : Nat} {stop : Rat} (hN : N * h ≤ stop)
    (hK : 2 * stop + 1 ≤ K * hh) (hb : fuel * N + K < 2 ^ 64) (hf : K < fuel) {k : Nat} (hk : k < N) {w : World XRat D}
    (hr : Running m p c₀ hh h stop fuel k w) :
    ∃ w' s o, FMI2.step m fuel w (.doStep (.fin (k * h)) (.fin h)) = .ret (w', s, o) ∧
      (s = .OK ∧ Running m p c₀ hh h stop fuel (k + 1) w' ∨ s = .Discard ∧ Alive m c₀ .stepComplete w') := by
  have hok := hm.ref.eff.okOrError
  obtain ⟨t, hT⟩ := hr.ticks
  have hh0 : 0 ≤ hh := by cases hm <;> cases hh' <;> decide +kernel
  have hkN : ((k : Rat) + 1) * h ≤ N * h := mul_le_mul_of_nonneg_right (by exact_mod_cast hk) h0.le
  have hk0 : (0 : Rat) ≤ k * h := mul_nonneg (by exact_mod_cast Nat.zero_le k) h0.le
  have ht0 : 0 ≤ t := by rw [hT.grid]; have : (0 : Rat) ≤ w.inst.nSteps * hh := mul_nonneg (by exact_mod_cast Nat.zero_le _) hh0; linarith
  have hfk : fuel * k + fuel ≤ fuel * N := by rw [← Nat.mul_succ]; exact Nat.mul_le_mul_left _ hk
  have hsteps := hr.steps
  obtain ⟨w', s, o, e, hs⟩ := doStep_legal hm hr.alive.reach hr.alive.state hr.over (a := k * h) (d := h)
    (.mk (e := k * h) (by rw [hr.clock]) (.refl _) h0 (.inr ⟨stop, by rw [hr.clock], .inl (by linarith)⟩)) hh' hT (K := K)
    (by rw [abs_of_nonneg (by linarith)]; linarith) (by omega) hf
  refine ⟨w', s, o, e, ?_⟩
  have hne : s ≠ .Error := by rcases hs with rfl | rfl <;> simp
  obtain ⟨-, -, n, hnf, hl⟩ := doStep_loop hok e hne
  have hal : Alive m c₀ .stepComplete w' := ⟨hr.alive.reach.call hok e, step_inv hok (kept m c₀) hr.alive.kept _ _ e,
    (hl.state hok hne).trans hr.alive.state⟩
  rcases hs with rfl | rfl
  · refine .inl ⟨rfl, And.elim (fun a b => ⟨hal, ?_, ?_, a, b⟩) ?_⟩
    · obtain ⟨od, hon⟩ := hm.ongoing
      obtain ⟨hlen, hinv⟩ := hr.alive.reach.ready od hm.ref
      have hconf : od.Configured w.inst := hinv.resolve_left (by rw [hr.alive.state]; simp [Mode.early])
      exact hl.ongoing hm.lawful hon (hconf.ready hlen) hr.over rfl
    · rw [hl.clock hok, if_pos rfl, hr.clock]
      change Clock.mk (XRat.fin (k * h) +. XRat.fin h) _ = _
      rw [XRat.add_fin]
      congr 2
      push_cast
      ring
    · have hadv := doStep_advanced hok (m := m) _ e
      obtain ⟨n', hn', hadv⟩ := hadv
      rw [hh'] at hadv
      obtain ⟨h1, h2⟩ := hT.advanced hadv (by omega)
      simp only at h2
      exact ⟨h1, by rw [h2, Nat.mul_succ]; omega⟩
  · exact .inr ⟨rfl, hal⟩

theorem asked_terminated {w : World XRat D} {fuel : Nat} (h : w.inst.ctx.state = .stepComplete) :
    FMI2.step m fuel w (.getBooleanStatus .terminated (some false)) = .ret (w, .OK, .bool (some w.inst.mv.terminateSimulation)) := by
  have : allowed w.inst.ctx MASK_GetStatus = true := by simp [allowed, h]; decide
  simp [FMI2.step, World.run, getBooleanStatus, begin, beginFunction, this]

theorem asked_time {w : World XRat D} {fuel : Nat} (h : w.inst.ctx.state = .stepComplete) :
    FMI2.step m fuel w (.getRealStatus .lastSuccessfulTime (some (Arith.lit 0))) = .ret (w, .OK, .real (some w.inst.ctx.time)) := by
  have : allowed w.inst.ctx MASK_GetStatus = true := by simp [allowed, h]; decide
  simp [FMI2.step, World.run, getRealStatus, begin, beginFunction, this]

theorem drives (hm : Describes m p) (hc : c₀.ctx.typ = .coSimulation) (hn : p.needs c₀.ctx) {P : Program XRat (Op XRat)} (hP : Fits m p P)
    {hh h : Rat} (hh' : m.h = .fin hh) (hPh : P.h = .fin h) (h0 : 0 < h) {N fuel K : Nat} {stop : Rat} (hN : N * h ≤ stop)
    (hK : 2 * stop + 1 ≤ K * hh) (hb : fuel * N + K < 2 ^ 64) (hf : K < fuel) :
    Drives (api2 m fuel P.h) (Goes m fuel P) (EndsSimulation m fuel P) P N (Running m p c₀ hh h stop fuel) := by
  have hpt : ∀ k, P.point k = .fin (k * h) := fun k => by rw [Program.point, hPh]; rfl
  refine ⟨fun _ hw => AllOK.of_inv (fun o ho w hw => hw.access hm hc hn (hP.record o ho)) hw,
    fun _ hw => AllOK.of_inv (fun o ho w hw => hw.access hm hc hn (hP.inputs _ o ho)) hw,
    fun _ hw => hw.alive.terminate hm hc hn fuel, ?_⟩
  intro k w hk hw
  obtain ⟨w', s, o, e, hs⟩ := hw.doStep hm hh' h0 hN hK hb hf hk
  rw [← hpt, ← hPh] at e
  rcases hs with ⟨rfl, hr⟩ | ⟨rfl, ha⟩
  · exact .inl ⟨w', by simp [api2, advance2, e], ⟨o, e⟩, hr⟩
  · right; right
    have hb : w'.inst.mv.terminateSimulation = true := (says_terminated (m := m) ha.state).eq (C24_discarded hm.ref e).1
    have k1 := asked_terminated (m := m) (fuel := fuel) ha.state
    have k2 := asked_time (m := m) (fuel := fuel) ha.state
    rw [hb] at k1
    obtain ⟨w₁, vs, k3, ha'⟩ := AllOK.of_inv (call := FMI2.step m fuel) (os := P.record) (Q := Alive m c₀ .stepComplete)
      (fun o ho w hw => by
        obtain ⟨w', o, e, k, -⟩ := hw.access hm hc hn (hP.record o ho) fuel
        exact ⟨w', o, e, k⟩) ha
    obtain ⟨w₂, v, k4⟩ := ha'.terminate hm hc hn fuel
    exact ⟨w', w₁, w₂, _, vs, v, by simp only [api2, advance2, e, k1, k2, Outcome.ret_bind, if_true], k3, ⟨w', w', w₁, o, _, vs, e, .cons k1 (.cons k2 .nil), k3, rfl⟩, k4⟩

theorem created (hm : Describes m p) (resource : Ptr UInt8) :
    ∃ c l, instantiate m (some "instance1") .coSimulation (some m.token) resource (some true) false true = (some c, l) := by
  unfold instantiate
  simp only []
  cases hm <;> exact ⟨_, _, rfl⟩

theorem created_ongoing (hm : Describes m p) {resource : Ptr UInt8} {l} {c : Comp XRat D}
    (h : instantiate m (some "instance1") .coSimulation (some m.token) resource (some true) false true = (some c, l)) :
    ¬p.over c.mv.data := by
  replace h : createModelInstance m false true false (some "instance1") (some m.token) resource false true .coSimulation = (some c, l) := h
  rw [createModelInstance_mv h]
  cases hm
  case stair => exact fun h => absurd h (by change ¬((10 : Int) ≤ 1); decide)
  all_goals exact fun h => h

theorem started (hm : Describes m p) {resource : Ptr UInt8} {l} {c : Comp XRat D}
    (hc : instantiate m (some "instance1") .coSimulation (some m.token) resource (some true) false true = (some c, l))
    (hn : p.needs c.ctx) {P : Program XRat (Op XRat)} (hP : Fits m p P) {hh h stop : Rat} (hs : P.stopTime = .fin stop) {fuel : Nat} :
    ∃ w vs, AllOK (FMI2.step m fuel) (.fresh c) (P.start ++ [.setupExperiment (Arith.lit 0) true P.stopTime, .enterInitializationMode,
      .exitInitializationMode]) w vs ∧ Running m p c hh h stop fuel 0 w := by
  have hok := hm.ref.eff.okOrError
  have hc' : createModelInstance m false true false (some "instance1") (some m.token) resource false true .coSimulation = (some c, l) := hc
  have ht := (createModelInstance_ctx hc').1
  have ha : Alive m c .instantiated (.fresh c) := ⟨⟨_, _, _, _, _, _, c, l, _, 0, [], [], hc, ⟨rfl, fun _ => rfl, fun _ _ e => by cases e⟩, rfl⟩,
    WInv.fresh ⟨⟨rfl, rfl, rfl, rfl, rfl⟩, rfl, rfl⟩, (createModelInstance_ctx hc').2.1⟩
  obtain ⟨w₁, v₁, h1, ha, ho⟩ := AllOK.of_inv (call := FMI2.step m fuel) (os := P.start)
    (Q := fun w => Alive m c .instantiated w ∧ ¬p.over w.inst.mv.data)
    (fun o ho w hw => by
      obtain ⟨w', o, e, k, k', -⟩ := hw.1.access hm ht hn (hP.start o ho) fuel
      exact ⟨w', o, e, k, k' hw.2⟩) ⟨ha, created_ongoing hm hc⟩
  obtain ⟨w₂, o₂, e₂, a₂, k₂, t₂⟩ := ha.step hm ht hn (op := .setupExperiment (Arith.lit 0) true P.stopTime) (by simp [Op.fn])
    (by simp [Op.fn, Spec.allowedIn]) trivial trivial fuel
  obtain ⟨-, s1, s2, s3, s4⟩ := setup_start hok ha.reach e₂
  obtain ⟨w₃, o₃, e₃, a₃, k₃, t₃⟩ := a₂.step hm ht hn (op := .enterInitializationMode) (by simp [Op.fn])
    (by simp [Op.fn, Spec.allowedIn, Spec.nextMode]) trivial trivial fuel
  obtain ⟨w₄, o₄, e₄, a₄, k₄, t₄⟩ := a₃.step hm ht hn (op := .exitInitializationMode) (by simp [Op.fn])
    (by simp [Op.fn, Spec.allowedIn, Spec.nextMode]) trivial trivial fuel
  have tt : w₄.inst.times = w₂.inst.times := t₄.trans t₃
  refine ⟨w₄, _, h1.append (.cons e₂ (.cons e₃ (.cons e₄ .nil))), a₄, k₄ (k₃ (k₂ ho)), ?_, ⟨0, ?_⟩, ?_⟩
  · rw [show w₄.inst.clock = w₂.inst.clock from clock_of_times tt, s4, hs]
    simp
  · exact Ticks.of_times (c := w₂.inst) ⟨s3, s2, by rw [s1]; simp⟩ tt
  · have : w₄.inst.nSteps = w₂.inst.nSteps := congrArg Times.nSteps tt
    rw [this, s1]; simp

end
end FMI2

/-! ## FMI 3.0 -/

namespace FMI3
section
variable {F D : Type} [Arith F] [HasInf F] {m : Model F D} {p : Profile F D} {c₀ : Comp F D}

/-- A Co-Simulation instance in the mode, created as `c₀`. -/
structure Alive (m : Model F D) (c₀ : Comp F D) (mode : Mode) (w : World F D) : Prop where
  reach : ReachableProper m .coSimulation w
  kept : WInv c₀.Kept w
  state : w.inst.ctx.state = mode

theorem Alive.typ {mode : Mode} {w : World F D} (h : Alive m c₀ mode w) (hc : c₀.ctx.typ = .coSimulation) :
    w.inst.ctx.typ = .coSimulation := h.kept.inst.1.1.trans hc

theorem Alive.step (hm : Describes m p) (hc : c₀.ctx.typ = .coSimulation) (hn : p.needs c₀.ctx) {mode : Mode} {w : World F D}
    (h : Alive m c₀ mode w) {op : Op F} (hX : op.fn ∉ [Fn.doStep, .updateDiscreteStates, .setFMUState]) (hp : op.fn ≠ .activateModelPartition)
    (hE : op.fn ≠ .enterStepMode) (hs : mode ∈ Spec.allowedIn op.fn)
    (ha : Args m p w op) (wf : WellFormed w op) (fuel : Nat) :
    ∃ w' o, FMI3.step m fuel w op = .ret (w', .OK, o) ∧ Alive m c₀ (Spec.nextMode op.fn .coSimulation c₀.eventModeUsed mode) w' ∧
      (¬p.over w.inst.mv.data → ¬p.over w'.inst.mv.data) ∧ w'.inst.times = timesAfter w op .OK := by
  have hok := hm.ref.eff.okOrError
  have hn' : p.needs w.inst.ctx := hm.needs_kept h.kept.inst.1.2.1 hn
  have hd : op.fn ≠ .doStep := fun e => hX (by simp [e])
  have ho : op.fn = .updateDiscreteStates → ¬p.over w.inst.mv.data := fun e => absurd e fun e => hX (by simp [e])
  obtain ⟨⟨w', s, o⟩, e⟩ := legal_ret hm (h.reach.reachable hok) hn' hd wf ha.enough hp ho fuel
  obtain rfl := (C61_partial hm hn' hd ho e).2 ⟨by rw [h.state]; exact hs, ha⟩
  refine ⟨w', o, e, ⟨h.reach.call e (fun e => absurd e hE), step_inv hok (FMI3.kept m c₀) h.kept op _ e, ?_⟩, fun hp => hm.over_kept e hX hp,
    step_times hok hd _ e⟩
  obtain ⟨-, h1 | ⟨-, -, h1⟩ | ⟨-, h1, -⟩⟩ := step_mode' hok _ e
  · cases h1.1
  · simp only at h1
    rw [h1]
    unfold Spec.modeAfter
    split
    · exact absurd (by simp [Op.fn]) hX
    · rw [h.typ hc, h.state, h.kept.inst.2.2]
  · cases h1

/-- Getting and setting variables. -/
theorem Alive.access (hm : Describes m p) (hc : c₀.ctx.typ = .coSimulation) (hn : p.needs c₀.ctx) {mode : Mode} {w : World F D}
    (h : Alive m c₀ mode w) {op : Op F} (ha : Access m p mode op) (fuel : Nat) :
    ∃ w' o, FMI3.step m fuel w op = .ret (w', .OK, o) ∧ Alive m c₀ mode w' ∧
      (¬p.over w.inst.mv.data → ¬p.over w'.inst.mv.data) ∧ w'.inst.times = w.inst.times := by
  obtain ⟨h1, h2, h3⟩ := ha
  obtain ⟨h3, h4⟩ := h3 w (h.typ hc) h.state
  obtain ⟨w', o, e, k1, k2, k3⟩ := h.step hm hc hn
    (by intro h; simp at h; rcases h1 with ⟨t, h1⟩ | ⟨t, h1⟩ <;> rcases h with h | h | h <;> simp [h] at h1)
    (by rintro h; rcases h1 with ⟨t, h1⟩ | ⟨t, h1⟩ <;> simp [h] at h1)
    (by rintro h; rcases h1 with ⟨t, h1⟩ | ⟨t, h1⟩ <;> simp [h] at h1) h2 h3 h4 fuel
  refine ⟨w', o, e, ?_, k2, ?_⟩
  · have : Spec.nextMode op.fn .coSimulation c₀.eventModeUsed mode = mode := by
      rcases h1 with ⟨t, h⟩ | ⟨t, h⟩ <;> rw [h] <;> rfl
    rwa [this] at k1
  · rw [k3]
    unfold timesAfter
    rw [if_pos rfl]
    cases op <;> first | rfl | (exfalso; simp [Op.fn] at h1)

end

section
variable {D : Type} {m : Model XRat D} {p : Profile XRat D} {c₀ : Comp XRat D}

/-- The instance at the communication point `k`. -/
structure Running (m : Model XRat D) (p : Profile XRat D) (c₀ : Comp XRat D) (hh h stop : Rat) (fuel k : Nat) (w : World XRat D) : Prop where
  alive : Alive m c₀ .stepMode w
  over : ¬p.over w.inst.mv.data
  clock : w.inst.clock = ⟨.fin (k * h), .fin stop⟩
  ticks : ∃ t, Ticks hh 0 t w.inst
  steps : w.inst.nSteps ≤ fuel * k

theorem Running.access (hm : Describes m p) (hc : c₀.ctx.typ = .coSimulation) (hn : p.needs c₀.ctx) {hh h stop : Rat} {fuel k : Nat}
    {w : World XRat D} (hr : Running m p c₀ hh h stop fuel k w) {op : Op XRat} (ha : Access m p .stepMode op) :
    ∃ w' o, FMI3.step m fuel w op = .ret (w', .OK, o) ∧ Running m p c₀ hh h stop fuel k w' := by
  obtain ⟨w', o, e, k1, k2, k3⟩ := hr.alive.access hm hc hn ha fuel
  obtain ⟨t, hT⟩ := hr.ticks
  refine ⟨w', o, e, k1, k2 hr.over, ?_, ⟨t, hT.of_times k3⟩, ?_⟩
  · rw [clock_of_times k3]; exact hr.clock
  · have : w'.inst.nSteps = w.inst.nSteps := congrArg Times.nSteps k3
    rw [this]; exact hr.steps

theorem Alive.terminate (hm : Describes m p) (hc : c₀.ctx.typ = .coSimulation) (hn : p.needs c₀.ctx) {w : World XRat D}
    (h : Alive m c₀ .stepMode w) (fuel : Nat) : ∃ w' o, FMI3.step m fuel w .terminate = .ret (w', .OK, o) := by
  obtain ⟨w', o, e, -⟩ := h.step hm hc hn (op := .terminate) (by simp [Op.fn]) (by simp [Op.fn]) (by simp [Op.fn])
    (by simp [Op.fn, Spec.allowedIn]) trivial trivial fuel
  exact ⟨w', o, e⟩

/-- A step from the communication point `k` on. -/
theorem Running.doStep (hm : Describes m p) (hn : p.needs c₀.ctx) (h1 : c₀.eventModeUsed = false) (h2 : c₀.earlyReturnAllowed = false)
    {hh h : Rat} (hh' : m.h = .fin hh) (h0 : 0 < h) {N fuel K : Nat} {stop : Rat} (hN : N * h ≤ stop)
    (hK : 2 * stop + 1 ≤ K * hh) (hb : fuel * N + K < 2 ^ 64) (hf : K < fuel) {k : Nat} (hk : k < N) {w : World XRat D}
    (hr : Running m p c₀ hh h stop fuel k w) :
    ∃ w' r, FMI3.step m fuel w (.doStep (.fin (k * h)) (.fin h) ⟨some false, some false, some false, some (Arith.lit 0)⟩) = .ret (w', .OK, .step r) ∧
      (r.terminateSimulation = some false ∧ Running m p c₀ hh h stop fuel (k + 1) w' ∨
        r.terminateSimulation = some true ∧ Alive m c₀ .stepMode w') := by
  have hok := hm.ref.eff.okOrError
  obtain ⟨t, hT⟩ := hr.ticks
  have hh0 : 0 ≤ hh := by cases hm <;> cases hh' <;> decide +kernel
  have hkN : ((k : Rat) + 1) * h ≤ N * h := mul_le_mul_of_nonneg_right (by exact_mod_cast hk) h0.le
  have hk0 : (0 : Rat) ≤ k * h := mul_nonneg (by exact_mod_cast Nat.zero_le k) h0.le
  have ht0 : 0 ≤ t := by rw [hT.grid]; have : (0 : Rat) ≤ w.inst.nSteps * hh := mul_nonneg (by exact_mod_cast Nat.zero_le _) hh0; linarith
  have hfk : fuel * k + fuel ≤ fuel * N := by rw [← Nat.mul_succ]; exact Nat.mul_le_mul_left _ hk
  have hsteps := hr.steps
  obtain ⟨w', o, e⟩ := doStep_legal hm hr.alive.reach (hm.needs_kept hr.alive.kept.inst.1.2.1 hn) hr.alive.state hr.over (a := k * h) (d := h)
    (out := ⟨some false, some false, some false, some (Arith.lit 0)⟩) (by simp [WellFormed])
    (.mk (e := k * h) (by rw [hr.clock]) (.refl _) h0 (.inr ⟨stop, by rw [hr.clock], .inl (by linarith)⟩)) hh' hT (K := K)
    (by rw [abs_of_nonneg (by linarith)]; linarith) (by omega) hf
  have hk' := step_inv hok (FMI3.kept m c₀) hr.alive.kept _ _ e
  have hre := hr.alive.reach.call e (fun e => by simp [Op.fn] at e)
  obtain ⟨n', hn', hadv⟩ := doStep_advanced hok (m := m) _ e
  obtain ⟨-, n, c', ehn, r, hnf, hl, hw', rfl⟩ := doStep_loop hok e
  have hal : Alive m c₀ .stepMode w' := ⟨hre, hk', by rw [hw']; exact (hl.state hok rfl).trans hr.alive.state⟩
  refine ⟨w', _, e, ?_⟩
  cases hterm : c'.mv.terminateSimulation
  · left
    obtain ⟨od, hon⟩ := hm.ongoing
    obtain ⟨hlen, hinv⟩ := hr.alive.reach.ready od hm.ref
    have hconf : od.Configured w.inst := hinv.resolve_left (by rw [hr.alive.state]; simp [Mode.early])
    obtain ⟨hreached, hov⟩ := hl.ongoing hm.lawful hon hok (hconf.ready hlen) (hr.alive.kept.inst.2.2.trans h1) (hr.alive.kept.inst.2.1.trans h2) rfl hr.over
      rfl hterm
    rw [hh'] at hadv
    obtain ⟨k1, k2⟩ := hT.advanced hadv (by omega)
    simp only at k2
    refine ⟨rfl, hal, by rw [hw']; exact hov, ?_, k1, by rw [k2, Nat.mul_succ]; omega⟩
    have hcl : c'.clock = w.inst.clock := hl.clock hok
    rw [hr.clock] at hcl
    have hst : c'.stopTime = .fin stop := congrArg Clock.stop hcl
    rw [hw', hreached]
    change Clock.mk (XRat.fin (k * h) +. XRat.fin h) c'.stopTime = _
    rw [XRat.add_fin, hst]
    congr 2
    push_cast
    ring
  · exact .inr ⟨rfl, hal⟩

theorem drives (hm : Describes m p) (hc : c₀.ctx.typ = .coSimulation) (hn : p.needs c₀.ctx) (h1 : c₀.eventModeUsed = false)
    (h2 : c₀.earlyReturnAllowed = false) {P : Program XRat (Op XRat)} (hP : Fits m p P)
    {hh h : Rat} (hh' : m.h = .fin hh) (hPh : P.h = .fin h) (h0 : 0 < h) {N fuel K : Nat} {stop : Rat} (hN : N * h ≤ stop)
    (hK : 2 * stop + 1 ≤ K * hh) (hb : fuel * N + K < 2 ^ 64) (hf : K < fuel) :
    Drives (api3 m fuel P.h) (Goes m fuel P) (EndsSimulation m fuel P) P N (Running m p c₀ hh h stop fuel) := by
  have hpt : ∀ k, P.point k = .fin (k * h) := fun k => by rw [Program.point, hPh]; rfl
  refine ⟨fun _ hw => AllOK.of_inv (fun o ho w hw => hw.access hm hc hn (hP.record o ho)) hw,
    fun _ hw => AllOK.of_inv (fun o ho w hw => hw.access hm hc hn (hP.inputs _ o ho)) hw,
    fun _ hw => hw.alive.terminate hm hc hn fuel, ?_⟩
  intro k w hk hw
  obtain ⟨w', r, e, hs⟩ := hw.doStep hm hn h1 h2 hh' h0 hN hK hb hf hk
  rw [← hpt, ← hPh] at e
  rcases hs with ⟨ht, hr⟩ | ⟨ht, ha⟩
  · exact .inl ⟨w', by simp only [api3, advance3, e, Outcome.ret_bind, ht]; rfl, ⟨r, e, ht⟩, hr⟩
  · obtain ⟨w₂, v, k4⟩ := ha.terminate hm hc hn fuel
    exact .inr (.inl ⟨w', w₂, v, by simp only [api3, advance3, e, Outcome.ret_bind, ht]; rfl, ⟨w', r, e, ht, rfl⟩, k4⟩)

theorem created (hm : Describes m p) (resource : Ptr UInt8) :
    ∃ c l, instantiateCoSimulation m (some "instance1") (some m.token) resource false false false true false true = (some c, l) := by
  unfold instantiateCoSimulation
  cases hm <;> exact ⟨_, _, rfl⟩

theorem created_ongoing (hm : Describes m p) {resource : Ptr UInt8} {l} {c : Comp XRat D}
    (h : instantiateCoSimulation m (some "instance1") (some m.token) resource false false false true false true = (some c, l)) :
    ¬p.over c.mv.data ∧ c.ctx.typ = .coSimulation ∧ c.ctx.state = .instantiated ∧ c.eventModeUsed = false ∧ c.earlyReturnAllowed = false := by
  cases hm
  case stair => cases h; exact ⟨fun h => absurd h (by change ¬((10 : Int) ≤ 1); decide), rfl, rfl, rfl, rfl⟩
  all_goals cases h; exact ⟨fun h => h, rfl, rfl, rfl, rfl⟩

theorem started (hm : Describes m p) {resource : Ptr UInt8} {l} {c : Comp XRat D}
    (hc : instantiateCoSimulation m (some "instance1") (some m.token) resource false false false true false true = (some c, l))
    (hn : p.needs c.ctx) {P : Program XRat (Op XRat)} (hP : Fits m p P) {hh h stop : Rat} (hs : P.stopTime = .fin stop) {fuel : Nat} :
    ∃ w vs, AllOK (FMI3.step m fuel) (.fresh c) (P.start ++ [.enterInitializationMode (Arith.lit 0) true P.stopTime,
      .exitInitializationMode]) w vs ∧ Running m p c hh h stop fuel 0 w := by
  have hok := hm.ref.eff.okOrError
  obtain ⟨hov, ht, hst, hemu, -⟩ := created_ongoing hm hc
  have ha : Alive m c .instantiated (.fresh c) := ⟨.new (.cs hc) ⟨rfl, fun _ => rfl, fun _ _ e => by cases e⟩,
    WInv.fresh ⟨⟨rfl, rfl, rfl, rfl, rfl⟩, rfl, rfl⟩, hst⟩
  obtain ⟨w₁, v₁, h1, ha, ho⟩ := AllOK.of_inv (call := FMI3.step m fuel) (os := P.start)
    (Q := fun w => Alive m c .instantiated w ∧ ¬p.over w.inst.mv.data)
    (fun o ho w hw => by
      obtain ⟨w', o, e, k, k', -⟩ := hw.1.access hm ht hn (hP.start o ho) fuel
      exact ⟨w', o, e, k, k' hw.2⟩) ⟨ha, hov⟩
  obtain ⟨w₂, o₂, e₂, a₂, k₂, t₂⟩ := ha.step hm ht hn (op := .enterInitializationMode (Arith.lit 0) true P.stopTime) (by simp [Op.fn])
    (by simp [Op.fn]) (by simp [Op.fn]) (by simp [Op.fn, Spec.allowedIn]) trivial trivial fuel
  obtain ⟨s1, s2, s3, s4⟩ := init_start hok (ha.reach.reachable hok) e₂
  obtain ⟨w₄, o₄, e₄, a₄, k₄, t₄⟩ := a₂.step hm ht hn (op := .exitInitializationMode) (by simp [Op.fn])
    (by simp [Op.fn]) (by simp [Op.fn]) (by simp [Op.fn, Spec.allowedIn, Spec.nextMode]) trivial trivial fuel
  rw [hemu] at a₄
  have tt : w₄.inst.times = w₂.inst.times := t₄
  refine ⟨w₄, _, h1.append (.cons e₂ (.cons e₄ .nil)), a₄, k₄ (k₂ ho), ?_, ⟨0, ?_⟩, ?_⟩
  · rw [show w₄.inst.clock = w₂.inst.clock from clock_of_times tt, s4, hs]
    simp
  · exact Ticks.of_times (c := w₂.inst) ⟨s3, s2, by rw [s1]; simp⟩ tt
  · have : w₄.inst.nSteps = w₂.inst.nSteps := congrArg Times.nSteps tt
    rw [this, s1]; simp

end
end FMI3

end Verif
