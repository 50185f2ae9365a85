import Verif.Lemmas.StairRun
import Verif.Lemmas.Shows
import Verif.Lemmas.DoStep
import Verif.Examples
import Mathlib.Data.Rat.Floor

/-!
# C32: Stair counts the seconds and stops at 10
-/

set_option linter.unusedSectionVars false

namespace Verif
open Stair

theorem floor_fifth (n : Nat) : ((n : Rat) / 5).floor = ((n / 5 : Nat) : Int) := by
  have := Rat.floor_natCast_div_natCast n 5
  show ⌊(n : Rat) / 5⌋ = _
  simpa using this

namespace FMI2

/-- Calls of a simulation that starts at time 0 and does not interfere with the FMU. -/
def FromZero (op : Op XRat) : Prop :=
  ¬ Interferes op ∨ op.fn = .enterInitializationMode ∨ ∃ sd stop, op = .setupExperiment (.fin 0) sd stop

theorem step_at {w w' : World XRat Data} (hr : Reachable Stair.model .coSimulation w) {n fuel op s o}
    (ha : At n w.inst) (hop : FromZero op) (e : step Stair.model fuel w op = .ret (w', s, o)) (hs : s ≠ .Error) :
    ∃ k, At (n + k) w'.inst := by
  have hm : RefFMU2 (Stair.model : Model XRat Data) := .stair
  by_cases hd : op.fn = .doStep
  · cases op <;> simp only [Op.fn, reduceCtorEq] at hd
    obtain ⟨-, -, k, -, hl⟩ := doStep_loop okOrError e hs
    exact ⟨k, (At.loop2 hl hs ha).1⟩
  · refine ⟨0, ?_⟩
    have hcs := (CSModes.initial okOrError hr).inst
    have hnd : op.fn ≠ .newDiscreteStates := by
      intro h
      have : w.inst.ctx.state ∉ Spec.allowedIn op.fn := by
        rw [h]
        have := hcs.2
        revert this
        cases w.inst.ctx.state <;> decide
      obtain ⟨w1, e1, -⟩ := refused Stair.model fuel w op this
      rw [e1] at e
      cases e
      exact hs rfl
    have hp : ¬ notPassive (Stair.model : Model XRat Data) op.fn := by
      rcases hop with h | h | ⟨sd, stop, rfl⟩
      · exact not_notPassive h hd fun h => absurd h hnd
      · rw [h]; simp [notPassive]
      · simp [notPassive, Op.fn]
    have hk := step_passive hm.eff (Stair.reads (F := XRat)) hp _ e
    have hl := (Reachable.ready Stair.ode hm (Reachable.call okOrError hr e)).1
    have ht := step_times okOrError hd _ e
    simp only at ht
    suffices w'.inst.startTime = .fin 0 ∧ w'.inst.ctx.time = .fin (n / 5) ∧ w'.inst.nSteps = n by
      exact ⟨⟨this.1, this.2.1, this.2.2, by rw [show w'.inst.mv.data = _ from hk.data]; exact ha.1.counter,
        hk.netd.trans ha.1.netd, hk.net.trans ha.1.net, hk.term.trans ha.1.term, ha.1.small⟩, hl, ha.2.2⟩
    have h1 : ∀ {t : Times XRat}, w'.inst.times = t → t.startTime = .fin 0 → t.time = .fin (n / 5) → t.nSteps = n →
        w'.inst.startTime = .fin 0 ∧ w'.inst.ctx.time = .fin (n / 5) ∧ w'.inst.nSteps = n := by
      rintro _ rfl h1 h2 h3
      exact ⟨h1, h2, h3⟩
    rcases hop with h | h | ⟨sd, stop, rfl⟩
    · rw [passive_times okOrError h hd e] at ht
      exact h1 (passive_times okOrError h hd e) ha.1.start ha.1.time ha.1.nSteps
    · refine h1 ht ?_ ?_ ?_ <;> cases op <;> simp only [Op.fn, reduceCtorEq] at h <;> simp only [timesAfter, ite_self] <;>
        first | exact ha.1.start | exact ha.1.time | exact ha.1.nSteps
    · by_cases hsOK : s = .OK
      · subst hsOK
        have hi : w.inst.ctx.state = .instantiated := by
          refine Classical.byContradiction fun hs' => ?_
          obtain ⟨w1, e1, -⟩ := refused Stair.model fuel w (.setupExperiment (.fin 0) sd stop)
            (by simpa [Spec.allowedIn, Op.fn] using hs')
          rw [e1] at e; cases e
        have h0 : n = 0 := ha.1.nSteps ▸ (unstepped_reachable okOrError hr (.inl hi)).1
        subst h0
        refine h1 ht ?_ ?_ ha.1.nSteps <;> simp [timesAfter]
      · refine h1 ht ?_ ?_ ?_ <;> simp only [timesAfter, if_neg hsOK]
        exacts [ha.1.start, ha.1.time, ha.1.nSteps]

theorem run_at {fuel : Nat} : ∀ (ops : List (Op XRat)) {w w' : World XRat Data} {n outs},
    Reachable Stair.model .coSimulation w → At n w.inst → (∀ op ∈ ops, FromZero op) →
    run Stair.model fuel w ops = .ret (w', outs) → (∀ p ∈ outs, p.1 ≠ .Error) →
    Reachable Stair.model .coSimulation w' ∧ ∃ k, At (n + k) w'.inst := by
  intro ops
  induction ops with
  | nil => intro w w' n outs hr ha _ e _; cases e; exact ⟨hr, 0, ha⟩
  | cons op ops ih =>
    intro w w' n outs hr ha hops e hs
    unfold run at e
    obtain ⟨⟨w1, s, x⟩, e1, e⟩ := Outcome.bind_eq_ret.1 e
    obtain ⟨⟨w2, l⟩, e2, e⟩ := Outcome.bind_eq_ret.1 e
    cases e
    obtain ⟨k, h1⟩ := step_at hr ha (hops op (by simp)) e1 (hs _ (List.mem_cons_self ..))
    obtain ⟨h2, k', h3⟩ := ih (Reachable.call okOrError hr e1) h1 (fun op h => hops op (by simp [h])) e2
      (fun p h => hs p (by simp [h]))
    exact ⟨h2, k + k', by rw [← Nat.add_assoc]; exact h3⟩

theorem new_at {name guid resource functions loggingOn mem} {c : Comp XRat Data} {l}
    (h : instantiate Stair.model name .coSimulation guid resource functions loggingOn mem = (some c, l)) : At 0 c := by
  unfold instantiate at h
  split at h
  · simp at h
  · simp at h
  · unfold createModelInstance at h
    simp only at h
    repeat' split at h
    all_goals first | (simp at h; done) | skip
    obtain ⟨h, -⟩ := Prod.mk.inj h
    cases h
    refine ⟨⟨rfl, ?_, rfl, rfl, rfl, ?_, rfl, by decide⟩, ⟨rfl, rfl, rfl, rfl⟩, by decide⟩
    · simp
    · simp; rfl

theorem At.shows {w : World XRat Data} {n : Nat} (h : At n w.inst) :
    ReadsTime Stair.model w (.fin (n / 5)) ∧ ShowsInteger Stair.model w 1 (1 + ((n : Rat) / 5).floor) := by
  refine ⟨?_, ?_⟩
  · rw [← h.1.time]; exact reads_time okOrError (RefFMU2.timeVar .stair) w
  · rw [floor_fifth, ← h.1.counter]
    exact shows_int Lens.stair (by simp) w

/-- **C32** (FMI 2.0): let the Stair FMU be instantiated for Co-Simulation and be called, as often and with whatever
communication steps, so that the simulation starts at time 0 and nothing is set, and let no call fail. Then the FMU is
at a time `t` between 0 and 10, excluding 10, the counter is 1 plus the number of whole seconds in `t`, and it is at most
10. If `t < 9`, a further `DoStep` that does not fail either returns `fmi2OK` before time 9, because it was to end before
9, or it returns `fmi2Discard` (the simulation ends) at time 9 with counter 10, because it was to end at or after 9, up to
the tolerance. -/
theorem C32_fmi2 {name guid resource functions loggingOn mem} {c : Comp XRat Data} {l}
    (h : instantiate Stair.model name .coSimulation guid resource functions loggingOn mem = (some c, l))
    {w w' : World XRat Data} (hw : w.Initial c) {fuel : Nat} {ops : List (Op XRat)} {outs}
    (hops : ∀ op ∈ ops, FromZero op) (e : run Stair.model fuel w ops = .ret (w', outs))
    (hs : ∀ p ∈ outs, p.1 ≠ .Error) :
    ∃ t : Rat, ReadsTime Stair.model w' (.fin t) ∧ 0 ≤ t ∧ t < 10 ∧
      ShowsInteger Stair.model w' 1 (1 + t.floor) ∧ 1 + t.floor ≤ 10 ∧
      (t < 9 → ∀ fuel ccp hs w'' s o, step Stair.model fuel w' (.doStep ccp hs) = .ret (w'', s, o) → s ≠ .Error →
        (s = .OK ∧ (∃ t', ReadsTime Stair.model w'' (.fin t') ∧ t ≤ t' ∧ t' < 9 ∧
            ShowsInteger Stair.model w'' 1 (1 + t'.floor)) ∧ ∀ q, ccp +. hs = .fin q → q < 9 ∧ ¬ Close 9 q) ∨
        (s = .Discard ∧ ReadsTime Stair.model w'' (.fin 9) ∧ ShowsInteger Stair.model w'' 1 10 ∧
          ∀ q, ccp +. hs = .fin q → 9 ≤ q ∨ Close 9 q)) := by
  have hr0 : Reachable Stair.model .coSimulation w := ⟨_, _, _, _, _, _, c, l, w, 0, [], [], h, hw, rfl⟩
  obtain ⟨hr, n, ha⟩ := run_at ops hr0 (hw.inst ▸ new_at h) hops e hs
  rw [Nat.zero_add] at ha
  have h0 : (0 : Rat) ≤ n := Nat.cast_nonneg _
  have h50 : (n : Rat) < 50 := by exact_mod_cast ha.2.2
  have hsh := At.shows ha
  refine ⟨n / 5, hsh.1, by linarith, by linarith, hsh.2, ?_, ?_⟩
  · rw [floor_fifth]; have := ha.2.2; omega
  · intro h9 fuel ccp hs w'' s o e hs
    have hn : n < 45 := by
      have : (n : Rat) < (45 : Nat) := by push_cast; linarith
      exact_mod_cast this
    obtain ⟨-, -, k, -, hl⟩ := doStep_loop okOrError e hs
    obtain ⟨ha', h45⟩ := At.loop2 hl hs ha
    have hticks : Ticks (1 / 5) 0 (n / 5) w'.inst :=
      ⟨ha.1.start, ha.1.time, by rw [ha.1.nSteps]; ring⟩
    have hk := ha'.1.small
    have hsh' := At.shows ha'
    rcases h45 hn with ⟨rfl, h⟩ | ⟨rfl, h⟩
    · left
      have h' : ((n + k : Nat) : Rat) ≤ 44 := by exact_mod_cast (show n + k ≤ 44 by omega)
      refine ⟨rfl, ⟨_, hsh'.1, ?_, by linarith, hsh'.2⟩, fun q hq => ?_⟩
      · have : (n : Rat) ≤ ((n + k : Nat) : Rat) := by exact_mod_cast Nat.le_add_right n k
        linarith
      · obtain ⟨-, hre⟩ := hl.count okOrError h_eq hq (by simp) hticks (by rw [ha.1.nSteps]; omega)
        have hre := (hre rfl).mono_t (t' := 44 / 5) (by push_cast at h'; linarith)
        have h1 := hre.1
        have h2 := hre.2
        norm_num at h1 h2
        exact ⟨h1, h2⟩
    · right
      have h' : ((n + k : Nat) : Rat) / 5 = 9 := by rw [h]; norm_num
      rw [h'] at hsh'
      refine ⟨rfl, hsh'.1, hsh'.2, fun q hq => ?_⟩
      obtain ⟨hc, -⟩ := hl.count okOrError h_eq hq (by simp) hticks (by rw [ha.1.nSteps]; omega)
      cases k with
      | zero => omega
      | succ k =>
        have := hc.last
        rwa [show (n : Rat) / 5 + ((k + 1 : Nat) : Rat) * (1 / 5) = 9 by rw [← h']; push_cast; ring] at this

/-- Non-vacuity: three steps to time 7.3 and a step towards 12, which is discarded at time 9. -/
example : (Ex.run2 Stair.model .coSimulation (Ex.init2 ++ [.doStep (.fin 0) (.fin 1),
      .getInteger (some [1]) 1 (some [0]), .doStep (.fin 1) (.fin 6), .doStep (.fin 7) (.fin (3 / 10)),
      .getInteger (some [1]) 1 (some [0])])).is
    (fun x => Ex.allOK x.2 && decide (x.1.inst.ctx.time = .fin (36 / 5)) &&
      decide (x.2.map (·.2) = [.unit, .unit, .unit, .unit, .ints (some [2]), .unit, .unit, .ints (some [8])]) &&
      (step Stair.model 1000 x.1 (.doStep (.fin (73 / 10)) (.fin 5))).is fun y =>
        decide (y.2.1 = .Discard) && decide (y.1.inst.ctx.time = .fin 9)) = true := by
  decide +kernel
example : ∀ op ∈ (Ex.init2 : List (Op XRat)), FromZero op := by
  intro op h
  simp only [Ex.init2, List.mem_cons, List.not_mem_nil, or_false] at h
  rcases h with rfl | rfl | rfl
  · exact .inr (.inr ⟨_, _, rfl⟩)
  · exact .inr (.inl rfl)
  · exact .inl (by simp [Interferes, Op.fn])

/-- The start time matters: started at 0.5, off the grid of events, the counter is still 1 at time 5.5. -/
theorem C32_start_off_grid : (Ex.run2 Stair.model .coSimulation [.setupExperiment (.fin (1 / 2)) false (.fin 0),
      .enterInitializationMode, .exitInitializationMode, .doStep (.fin (1 / 2)) (.fin 5),
      .getReal (some [0]) 1 (some [.fin 0]), .getInteger (some [1]) 1 (some [0])]).is
    (fun x => Ex.allOK x.2 && decide (x.2.map (·.2) = [.unit, .unit, .unit, .unit, .reals (some [.fin (11 / 2)]),
      .ints (some [1])])) = true := by
  decide +kernel

end FMI2

namespace FMI3

/-- Calls of a simulation that starts at time 0 and does not interfere with the FMU. -/
def FromZero (op : Op XRat) : Prop :=
  ¬ Interferes op ∨ ∃ sd stop, op = .enterInitializationMode (.fin 0) sd stop

theorem Reachable.lens {D : Type} {m : Model XRat D} (hm : RefFMU3 m) {t : IType} {w : World XRat D}
    (h : Reachable m t w) : w.inst.Lens m := by
  obtain ⟨E, hr, hE⟩ := hm.respects
  obtain ⟨c, w₀, fuel, ops, outs, h1, h2, h3⟩ := h
  have h0 : WRel (SRel m E Tight.full) (fun _ => True) (fun _ => True) w₀ w₀ :=
    (ReachableProper.new (t := t) h1 h2).self hr hE
  clear h1 h2
  induction ops generalizing w₀ outs with
  | nil => cases h3; exact h0.inst.lens
  | cons op ops ih =>
    unfold FMI3.run at h3
    obtain ⟨⟨w1, s, o'⟩, e1, e⟩ := Outcome.bind_eq_ret.1 h3
    obtain ⟨⟨w2, l⟩, e2, e⟩ := Outcome.bind_eq_ret.1 e
    cases e
    have := step_rel hr .full (fuel := fuel) h0 op (fun _ _ => trivial) (fun _ _ => trivial) (fun _ _ _ => trivial)
    rw [e1] at this
    exact ih _ _ e2 this.1

theorem Loop.emu {D : Type} {m : Model XRat D} (hm : OkOrError m) {next : XRat} {c c' : Comp XRat D} {ehn n s e r}
    (h : Loop m next c ehn n c' s e r) (hs : s ≠ .Error) : c'.eventModeUsed = c.eventModeUsed := by
  induction h with
  | done => rfl
  | step _ e _ ih => rw [ih hs, (iter_frame hm e).emu]; rfl
  | leave _ e => rw [(iter_frame hm e).emu]; rfl
  | error => exact absurd rfl hs

theorem step_at {w w' : World XRat Data} (hr : Reachable Stair.model .coSimulation w) {n fuel op s o}
    (ha : At n w.inst) (hem : w.inst.eventModeUsed = false) (hop : FromZero op)
    (e : step Stair.model fuel w op = .ret (w', s, o)) (hs : s = .OK) :
    w'.inst.eventModeUsed = false ∧ ∃ k, At (n + k) w'.inst := by
  have hm : RefFMU3 (Stair.model : Model XRat Data) := .stair
  subst hs
  by_cases hd : op.fn = .doStep
  · cases op <;> simp only [Op.fn, reduceCtorEq] at hd
    obtain ⟨-, k, c', ehn, r, -, hl, rfl, -⟩ := doStep_loop okOrError e
    have := (At.loop3 hl (by simp) rfl hem ha).1
    refine ⟨?_, k, ⟨this.1.start, this.1.time, this.1.nSteps, this.1.counter, this.1.netd, this.1.net, this.1.term,
      this.1.small⟩, ⟨this.2.1.z, this.2.1.prez, this.2.1.x, this.2.1.dx⟩, this.2.2⟩
    exact (hl.emu okOrError (by simp)).trans hem
  by_cases hu : op.fn = .updateDiscreteStates
  · cases op <;> simp only [Op.fn, reduceCtorEq] at hu
    simp only [step, World.run] at e
    obtain ⟨⟨c1, s1, o1⟩, e1, e⟩ := Outcome.bind_eq_ret.1 e
    cases e
    simp only [updateDiscreteStates, begin, beginFunction] at e1
    split at e1
    · simp only [Stair.model, call] at e1
      obtain ⟨c2, e2, h2, hf, hp, hz, hx, hdx⟩ := ha.1.idle (by omega) (by have := ha.2.2; omega)
      rw [e2] at e1
      cases e1
      exact ⟨hf.emu.trans hem, 0, h2, Lens.of_eq ha.2.1 hp hz hx hdx, ha.2.2⟩
    · cases e1
  have hp : ¬ notPassive (Stair.model : Model XRat Data) op.fn := by
    rcases hop with h | ⟨sd, stop, rfl⟩
    · exact not_notPassive h hd fun h => absurd h hu
    · simp [notPassive, Op.fn]
  have hk := step_passive hm.eff (Stair.reads (F := XRat)) hp _ e
  have hl := Reachable.lens hm (Reachable.call okOrError hr e)
  have ht := step_times okOrError hd _ e
  simp only at ht
  refine ⟨hk.emu.trans hem, 0, ?_⟩
  suffices w'.inst.startTime = .fin 0 ∧ w'.inst.ctx.time = .fin (n / 5) ∧ w'.inst.nSteps = n by
    exact ⟨⟨this.1, this.2.1, this.2.2, by rw [show w'.inst.mv.data = _ from hk.data]; exact ha.1.counter,
      hk.netd.trans ha.1.netd, hk.net.trans ha.1.net, hk.term.trans ha.1.term, ha.1.small⟩, hl, ha.2.2⟩
  have h1 : ∀ {t : Times XRat}, w'.inst.times = t → t.startTime = .fin 0 → t.time = .fin (n / 5) → t.nSteps = n →
      w'.inst.startTime = .fin 0 ∧ w'.inst.ctx.time = .fin (n / 5) ∧ w'.inst.nSteps = n := by
    rintro _ rfl h1 h2 h3
    exact ⟨h1, h2, h3⟩
  rcases hop with h | ⟨sd, stop, rfl⟩
  · exact h1 (passive_times okOrError h hd e) ha.1.start ha.1.time ha.1.nSteps
  · have hi : w.inst.ctx.state = .instantiated := by
      refine Classical.byContradiction fun hs' => ?_
      obtain ⟨w1, e1, -⟩ := refused Stair.model fuel w (.enterInitializationMode (.fin 0) sd stop) (by simp)
        (by simpa [Spec.allowedIn, Op.fn] using hs')
      rw [e1] at e; cases e
    have h0 : n = 0 := ha.1.nSteps ▸ (unstepped_reachable okOrError hr (by simp [hi])).1
    subst h0
    refine h1 ht ?_ ?_ ha.1.nSteps <;> simp [timesAfter]

theorem run_at {fuel : Nat} : ∀ (ops : List (Op XRat)) {w w' : World XRat Data} {n outs},
    Reachable Stair.model .coSimulation w → At n w.inst → w.inst.eventModeUsed = false → (∀ op ∈ ops, FromZero op) →
    run Stair.model fuel w ops = .ret (w', outs) → (∀ p ∈ outs, p.1 = .OK) →
    Reachable Stair.model .coSimulation w' ∧ w'.inst.eventModeUsed = false ∧ ∃ k, At (n + k) w'.inst := by
  intro ops
  induction ops with
  | nil => intro w w' n outs hr ha hem _ e _; cases e; exact ⟨hr, hem, 0, ha⟩
  | cons op ops ih =>
    intro w w' n outs hr ha hem hops e hs
    unfold run at e
    obtain ⟨⟨w1, s, x⟩, e1, e⟩ := Outcome.bind_eq_ret.1 e
    obtain ⟨⟨w2, l⟩, e2, e⟩ := Outcome.bind_eq_ret.1 e
    cases e
    obtain ⟨hem1, k, h1⟩ := step_at hr ha hem (hops op (by simp)) e1 (hs _ (List.mem_cons_self ..))
    obtain ⟨h2, h3, k', h4⟩ := ih (Reachable.call okOrError hr e1) h1 hem1 (fun op h => hops op (by simp [h])) e2
      (fun p h => hs p (by simp [h]))
    exact ⟨h2, h3, k + k', by rw [← Nat.add_assoc]; exact h4⟩

theorem new_at {name token resource loggingOn er logger iu mem} {c : Comp XRat Data} {l}
    (h : instantiateCoSimulation Stair.model name token resource loggingOn false er logger iu mem = (some c, l)) :
    At 0 c ∧ c.eventModeUsed = false := by
  unfold instantiateCoSimulation at h
  split at h
  · simp at h
  · unfold createModelInstance at h
    simp only at h
    repeat' split at h
    all_goals first | (simp at h; done) | skip
    obtain ⟨h, -⟩ := Prod.mk.inj h
    cases h
    refine ⟨⟨⟨rfl, ?_, rfl, rfl, rfl, ?_, rfl, by decide⟩, ⟨rfl, rfl, rfl, rfl⟩, by decide⟩, rfl⟩
    · simp; rfl
    · simp; rfl

theorem At.shows {w : World XRat Data} {n : Nat} (h : At n w.inst) :
    ReadsTime Stair.model w (.fin (n / 5)) ∧ Shows Stair.model w .int32 1 (1 + ((n : Rat) / 5).floor) := by
  refine ⟨?_, ?_⟩
  · rw [← h.1.time]; exact reads_time okOrError (RefFMU3.timeVar .stair) w
  · rw [floor_fifth, ← h.1.counter]
    exact FMI3.shows Lens.stair (by simp) w

/-- **C32** (FMI 3.0, without event mode): as for FMI 2.0. The end of the simulation at time 9 is signalled by
`terminateSimulation`. -/
theorem C32_fmi3 {name token resource loggingOn er logger iu mem} {c : Comp XRat Data} {l}
    (h : instantiateCoSimulation Stair.model name token resource loggingOn false er logger iu mem = (some c, l))
    {w w' : World XRat Data} (hw : w.Initial c) {fuel : Nat} {ops : List (Op XRat)} {outs}
    (hops : ∀ op ∈ ops, FromZero op) (e : run Stair.model fuel w ops = .ret (w', outs))
    (hs : ∀ p ∈ outs, p.1 = .OK) :
    ∃ t : Rat, ReadsTime Stair.model w' (.fin t) ∧ 0 ≤ t ∧ t < 10 ∧
      Shows Stair.model w' .int32 1 (1 + t.floor) ∧ 1 + t.floor ≤ 10 ∧
      (t < 9 → ∀ fuel ccp hs out w'' r, step Stair.model fuel w' (.doStep ccp hs out) = .ret (w'', .OK, .step r) →
        (r.terminateSimulation = some false ∧ (∃ t', ReadsTime Stair.model w'' (.fin t') ∧
            r.lastSuccessfulTime = some (.fin t') ∧ t ≤ t' ∧ t' < 9 ∧ Shows Stair.model w'' .int32 1 (1 + t'.floor)) ∧
          (r.earlyReturn = some false → ∀ q, ccp +. hs = .fin q → q < 9 ∧ ¬ Close 9 q)) ∨
        (r.terminateSimulation = some true ∧ ReadsTime Stair.model w'' (.fin 9) ∧
          r.lastSuccessfulTime = some (.fin 9) ∧ Shows Stair.model w'' .int32 1 10 ∧
          ∀ q, ccp +. hs = .fin q → 9 ≤ q ∨ Close 9 q)) := by
  have hr0 : Reachable Stair.model .coSimulation w := ⟨c, w, 0, [], [], .cs h, hw, rfl⟩
  obtain ⟨hnew, hem0⟩ := new_at h
  obtain ⟨hr, hem, n, ha⟩ := run_at ops hr0 (hw.inst ▸ hnew) (hw.inst ▸ hem0) hops e hs
  rw [Nat.zero_add] at ha
  have h0 : (0 : Rat) ≤ n := Nat.cast_nonneg _
  have h50 : (n : Rat) < 50 := by exact_mod_cast ha.2.2
  have hsh := At.shows ha
  refine ⟨n / 5, hsh.1, by linarith, by linarith, hsh.2, ?_, ?_⟩
  · rw [floor_fifth]; have := ha.2.2; omega
  · intro h9 fuel ccp hs out w'' r e
    have hn : n < 45 := by
      have : (n : Rat) < (45 : Nat) := by push_cast; linarith
      exact_mod_cast this
    obtain ⟨-, k, c', ehn, re, -, hl, rfl, ho⟩ := doStep_loop okOrError e
    cases ho
    obtain ⟨ha', h45⟩ := At.loop3 hl (by simp) rfl hem ha
    obtain ⟨h45, h45r⟩ := h45 hn
    have hticks : Ticks (1 / 5) 0 (n / 5) w'.inst :=
      ⟨ha.1.start, ha.1.time, by rw [ha.1.nSteps]; ring⟩
    have hk := ha'.1.small
    have ha'' : At (n + k) { c' with nextCommunicationPoint := if re then ccp +. hs else c'.ctx.time } :=
      ⟨⟨ha'.1.start, ha'.1.time, ha'.1.nSteps, ha'.1.counter, ha'.1.netd, ha'.1.net, ha'.1.term,
        ha'.1.small⟩, ⟨ha'.2.1.z, ha'.2.1.prez, ha'.2.1.x, ha'.2.1.dx⟩, ha'.2.2⟩
    have hsh' := At.shows (w := { w' with inst := { c' with nextCommunicationPoint := if re then ccp +. hs else c'.ctx.time } }) ha''
    have ht : c'.ctx.time = .fin ((n + k : Nat) / 5) := ha'.1.time
    rcases Nat.lt_or_ge (n + k) 45 with hlt | hge
    · left
      have hterm : c'.mv.terminateSimulation = false := by
        rw [Bool.eq_false_iff]
        intro h'
        have := ha'.term.1 h'
        omega
      have h' : ((n + k : Nat) : Rat) ≤ 44 := by exact_mod_cast (show n + k ≤ 44 by omega)
      refine ⟨by rw [hterm], ⟨_, hsh'.1, by rw [ht], ?_, by linarith, hsh'.2⟩, fun hr q hq => ?_⟩
      · have : (n : Rat) ≤ ((n + k : Nat) : Rat) := by exact_mod_cast Nat.le_add_right n k
        linarith
      · obtain ⟨-, hre⟩ := hl.count okOrError h_eq hq (by simp) hticks (by rw [ha.1.nSteps]; omega)
        have hret : re = true := by
          refine Classical.byContradiction fun hne => ?_
          have hf : re = false := by simpa using hne
          rcases hl.left okOrError rfl hf with h1 | h1
          · simp [h1, hf] at hr
          · rw [hterm] at h1; cases h1
        have hre := (hre hret).mono_t (t' := 44 / 5) (by push_cast at h'; linarith)
        have h1 := hre.1
        have h2 := hre.2
        norm_num at h1 h2
        exact ⟨h1, h2⟩
    · right
      have h45 : n + k = 45 := by omega
      have h' : ((n + k : Nat) : Rat) / 5 = 9 := by rw [h45]; norm_num
      rw [h'] at hsh' ht
      refine ⟨by rw [ha'.term.2 hge], hsh'.1, by rw [ht], hsh'.2, fun q hq => ?_⟩
      obtain ⟨hc, -⟩ := hl.count okOrError h_eq hq (by simp) hticks (by rw [ha.1.nSteps]; omega)
      cases k with
      | zero => omega
      | succ k =>
        have := hc.last
        rwa [show (n : Rat) / 5 + ((k + 1 : Nat) : Rat) * (1 / 5) = 9 by rw [← h']; push_cast; ring] at this

/-- Non-vacuity: three steps to time 7.3 and a step towards 12, which ends the simulation at time 9. -/
example : (Ex.runCS3 Stair.model false false (Ex.init3 ++ [.doStep (.fin 0) (.fin 1) Ex.stepOut,
      .get .int32 (some [1]) 1 (some [0]) 1, .doStep (.fin 1) (.fin 6) Ex.stepOut,
      .doStep (.fin 7) (.fin (3 / 10)) Ex.stepOut])).is
    (fun x => Ex.allOK x.2 && decide (x.1.inst.ctx.time = .fin (36 / 5)) &&
      (step Stair.model 1000 x.1 (.doStep (.fin (73 / 10)) (.fin 5) Ex.stepOut)).is fun y =>
        decide (y.2.1 = .OK) && decide (y.1.inst.ctx.time = .fin 9)) = true := by
  decide +kernel

end FMI3
end Verif
