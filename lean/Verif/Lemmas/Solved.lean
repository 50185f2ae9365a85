import Verif.Lemmas.Driver
import Verif.Lemmas.Frozen
import Verif.Lemmas.Machine
import Verif.Lemmas.Cut
import Verif.Props.C65

/-!
# What the Co-Simulation programs record

If the communication step size is a multiple of the solver step size, then every communication step consists of that many solver
steps, as long as the tolerance of the comparison of times is small compared to a solver step.
-/

set_option linter.unusedSectionVars false

namespace Verif
open Importer.CoSim

/-- `j` solver steps from `K * hh` on. -/
theorem euler_steps_eq {hh t : Rat} {j K n : Nat} (ht : t = K * hh) (h0 : tol < hh) (hK : ((K + j + 1 : Nat) : Rat) * tol < 1)
    (hb : ∀ i < n, ¬ Reach hh (t + j * hh) (t + i * hh)) (hr : Reach hh (t + j * hh) (t + n * hh)) : n = j := by
  have ht0 : (0 : Rat) < tol := by decide +kernel
  have hh0 : 0 < hh := lt_trans ht0 h0
  rcases Nat.lt_trichotomy n j with h | h | h
  · have h1 : ((n + 1 : Nat) : Rat) * hh ≤ j * hh := mul_le_mul_of_nonneg_right (by exact_mod_cast h) hh0.le
    have h2 := hr.1
    push_cast at h1
    linarith
  · exact h
  · rcases not_reach (hb j h) with h1 | h1
    · linarith
    · have e : t + j * hh + hh = ((K + j + 1 : Nat) : Rat) * hh := by rw [ht]; push_cast; ring
      have e2 : t + j * hh + hh - (t + j * hh) = hh := by ring
      have hq : 0 ≤ t + j * hh := by
        rw [ht, ← add_mul]
        exact mul_nonneg (by exact_mod_cast Nat.zero_le (K + j)) hh0.le
      rcases h1 with h1 | h1
      · rw [e2, abs_of_pos hh0] at h1; linarith
      · rw [e2, abs_of_pos hh0, abs_of_nonneg hq, abs_of_nonneg (by linarith), max_eq_left (by linarith), e] at h1
        have : tol * (((K + j + 1 : Nat) : Rat) * hh) = (((K + j + 1 : Nat) : Rat) * tol) * hh := by ring
        rw [this] at h1
        have := mul_lt_mul_of_pos_right hK hh0
        linarith

/-- The instance made `i` solver steps from the abstract state `s` on. -/
structure Solved {D S : Type} (hh : Rat) (tick : S → S) (R : S → Comp XRat D → Prop) (s : S) (i : Nat) (c : Comp XRat D) : Prop where
  ticks : Ticks hh 0 (i * hh) c
  nSteps : c.nSteps = i
  state : R (tick^[i] s) c

theorem AllOK.unique {W O V : Type} {call : W → O → Outcome (W × Status × V)} {w w₁ w₂ : W} {os vs us} (h : AllOK call w os w₁ vs)
    (h' : AllOK call w os w₂ us) : w₁ = w₂ ∧ vs = us := by
  induction h generalizing w₂ us with
  | nil => cases h'; exact ⟨rfl, rfl⟩
  | cons e _ ih =>
    cases h' with
    | cons e' h' =>
      rw [e] at e'
      cases e'
      obtain ⟨rfl, rfl⟩ := ih h'
      exact ⟨rfl, rfl⟩

/-- A part of the calls keeps what each of them keeps. -/
theorem AllOK.keeps {W O V : Type} {call : W → O → Outcome (W × Status × V)} {Q : W → Prop} {w w' : W} {os vs} (h : AllOK call w os w' vs)
    (hQ : ∀ o ∈ os, ∀ {w w' v}, Q w → call w o = .ret (w', .OK, v) → Q w') : Q w → Q w' := by
  induction h with
  | nil => exact id
  | cons e _ ih => exact fun hq => ih (fun o h => hQ o (List.mem_cons_of_mem _ h)) (hQ _ List.mem_cons_self hq e)

/-- The rows that belong to the communication points `0, …, N`. -/
theorem Simulated.rows {F W O V : Type} [Arith F] {call : W → O → Outcome (W × Status × V)} {goes : W → F → W → Prop}
    {ends : W → F → List (Row F V) → Prop} {P : Program F O} {w₀ : W} {N : Nat} {Q : Nat → W → Prop} {v : Nat → List V}
    (hQ : ∀ {k w w' vs}, Q k w → AllOK call w P.record w' vs → Q k w' ∧ vs = v k)
    (hin : ∀ t, P.inputs t = []) (hG : ∀ {k w w'}, k < N → Q k w → goes w (P.point k) w' → Q (k + 1) w')
    (hE : ∀ {k w last}, k < N → Q k w → ¬ends w (P.point k) last) (hq : Q 0 w₀) {rows} (h : Simulated call goes ends P w₀ N rows) :
    rows = (List.range (N + 1)).map fun k => ⟨P.point k, v k⟩ := by
  have hV : ∀ {k w w' row}, Q k w → Visits call P k w w' row → Q k w' ∧ row = ⟨P.point k, v k⟩ := by
    rintro k w w' ⟨t, vs⟩ hq ⟨ht, w₁, us, h1, h2⟩
    rw [hin] at h2
    cases h2
    obtain ⟨h3, h4⟩ := hQ hq h1
    simp only at ht h4
    exact ⟨h3, by rw [ht, h4]⟩
  have hP : ∀ {k w rows}, Proceeds call goes P w₀ k w rows → k ≤ N → Q k w ∧ rows = (List.range k).map fun k => ⟨P.point k, v k⟩ := by
    intro k w rows h
    induction h with
    | zero => exact fun _ => ⟨hq, rfl⟩
    | succ _ hv hg ih =>
      intro hk
      obtain ⟨h1, h2⟩ := ih (by omega)
      obtain ⟨h3, h4⟩ := hV h1 hv
      exact ⟨hG (by omega) h3 hg, by rw [List.range_succ, List.map_append, ← h2, h4]; rfl⟩
  cases h with
  | complete hp hv =>
    obtain ⟨h1, h2⟩ := hP hp (Nat.le_refl _)
    obtain ⟨h3, h4⟩ := hV h1 hv
    rw [List.range_succ, List.map_append, ← h2, h4]; rfl
  | ended hk hp hv he =>
    obtain ⟨h1, h2⟩ := hP hp (by omega)
    exact absurd he (hE hk (hV h1 hv).1)

namespace FMI2
variable {D S : Type} {m : Model XRat D} {p : Profile XRat D} {o : Ode m} {tick : S → S} {R E : S → Comp XRat D → Prop}

theorem Solved.passive (k : Follows o tick R E) (he : m.Eff) (hr : m.ReadsUpTo o.calc') {fuel : Nat} {hh : Rat} {s : S} {i : Nat} {w w' : World XRat D} {op out}
    (h : Solved hh tick R s i w.inst) (hs : Started w.inst) (hop : ¬ Interferes op) (hd : op.fn ≠ .doStep)
    (e : step m fuel w op = .ret (w', .OK, out)) : Solved hh tick R s i w'.inst := by
  have ha := step_alike o he hr hs hop hd e (by simp)
  have ht := passive_times he.okOrError hop hd e
  exact ⟨h.ticks.of_times ht, (congrArg Times.nSteps ht).trans h.nSteps, k.keep h.state ha⟩

theorem Solved.doStep (k : Follows o tick R E) (hm : RefFMU2 m) {fuel : Nat} {hh : Rat} (hh' : m.h = .fin hh) (h0 : tol < hh)
    {s : S} {i j : Nat} (hK : ((i + j + 1 : Nat) : Rat) * tol < 1) {w w' : World XRat D} {out} (h : Solved hh tick R s i w.inst)
    (hw : Reachable m .coSimulation w) (hn : i + fuel < 2 ^ 64)
    (e : step m fuel w (.doStep (.fin (i * hh)) (.fin (j * hh))) = .ret (w', .OK, out)) : Solved hh tick R s (i + j) w'.inst := by
  have hok := hm.eff.okOrError
  obtain ⟨n, hnf, d, hd, -, -, hc, hreach⟩ := doStep_ok hok hh' e h.ticks (by rw [h.nSteps]; exact hn)
  cases hd
  have hnj := Verif.euler_steps_eq rfl h0 hK hc.before hreach
  obtain ⟨hst, -, n', hnf', hl⟩ := doStep_loop hok e (by simp)
  obtain ⟨hl', hi⟩ := hw.ready o hm
  obtain ⟨k', -, hk', ha1⟩ := hl.advanced hok
  rw [hk' (by simp)] at ha1
  have hf := (hl.follows k hok (by simp) ((Ode.conf_not_early hi hst).ready hl') h.state).2
  have h2 := ha1.nSteps
  have h3 := hc.nSteps
  simp only [Comp.times] at h2
  rw [h3, h.nSteps] at h2
  have hj : n' = n := by
    split at h2
    · next h4 => subst h4; omega
    · rw [Nat.mod_eq_of_lt (by omega)] at h2; omega
  refine ⟨?_, by rw [h3, h.nSteps, hnj], ?_⟩
  · have := hc.ticks
    rwa [hnj, show (i : Rat) * hh + j * hh = ((i + j : Nat) : Rat) * hh by push_cast; ring] at this
  · rw [← hnj, ← hj, Nat.add_comm, Function.iterate_add_apply]; exact hf

/-- The rows of the program show the abstract states after `0, j, 2 j, …` solver steps. -/
theorem solved_rows (hm : Describes m p) (hT : Timeless m) (k : Follows o tick R E) (hrd : m.ReadsUpTo o.calc')
    {P : Program XRat (Op XRat)} (hP : Fits m p P) (hin : ∀ t, P.inputs t = []) (hst : P.start = [])
    (hrec : ∀ op ∈ P.record, ¬ Interferes op ∧ op.fn ≠ .doStep) {hh : Rat} (hh' : m.h = .fin hh) (ht0 : tol < hh) {j : Nat} (hj : 0 < j)
    (hPh : P.h = .fin (j * hh)) {N : Nat} (hs : P.stopTime = .fin (N * (j * hh))) (hK1 : ((N * j + 1 : Nat) : Rat) * tol < 1)
    {fuel K n : Nat} (hK : 2 * (N * (j * hh)) + 1 ≤ K * hh) (hf : K < fuel) (hb : fuel * N + K < 2 ^ 64) (hn : N < n) (resource : Ptr UInt8)
    (hneeds : ∀ c l, instantiate m (some "instance1") .coSimulation (some m.token) resource (some true) false true = (some c, l) → p.needs c.ctx)
    {s : S} {v : S → List (Out XRat)}
    (hstart : ∀ c l w vs, instantiate m (some "instance1") .coSimulation (some m.token) resource (some true) false true = (some c, l) →
      AllOK (step m fuel) (.fresh c) [.setupExperiment (Arith.lit 0) true P.stopTime, .enterInitializationMode, .exitInitializationMode] w vs → R s w.inst)
    (hv : ∀ {w w' vs s}, Reachable m .coSimulation w → R s w.inst → AllOK (step m fuel) w P.record w' vs → vs = v s) :
    simulate2 m P fuel n resource = .ret (.OK, (List.range (N + 1)).map fun (k : Nat) => ⟨.fin (k * (j * hh)), v (tick^[k * j] s)⟩) := by
  have hok := hm.ref.eff.okOrError
  have hhp : 0 < hh := lt_trans (by decide +kernel) ht0
  have h0 : 0 < (j : Rat) * hh := mul_pos (by exact_mod_cast hj) hhp
  obtain ⟨c, l, hc⟩ := created hm resource
  have hnc := hneeds c l hc
  obtain ⟨w₀, vs, ha, hr⟩ := started (hh := hh) (h := j * hh) hm hc hnc hP hs (fuel := fuel)
  have ht : c.ctx.typ = .coSimulation := (createModelInstance_ctx (show createModelInstance m false true false (some "instance1") (some m.token)
    resource false true .coSimulation = (some c, l) from hc)).1
  obtain ⟨c', l', w₁, vs', rows, hc', ha', h1, h2⟩ := C65 hm hP hh' hPh h0 hs hK hf hb hn resource hneeds
  rw [hc] at hc'
  cases hc'
  obtain ⟨h3, -⟩ : w₁ = w₀ ∧ vs' = vs := by
    exact AllOK.unique ha' ha
  subst h3
  have hpt : ∀ k, P.point k = .fin (k * (j * hh)) := fun k => by rw [Program.point, hPh]; rfl
  rw [h1]
  congr 2
  have hD := drives hm ht hnc hP hh' hPh h0 (le_refl ((N : Rat) * (j * hh))) hK hb hf
  refine (h2.rows (Q := fun k w => Running m p c hh (j * hh) (N * (j * hh)) fuel k w ∧ Solved hh tick R s (k * j) w.inst)
    (v := fun k => v (tick^[k * j] s)) (fun {k' w w' us} hq h => ?_) hin (fun {k' w w'} hk hq hg => ?_) (fun {k' w last} hk hq he => ?_) ⟨hr, ?_⟩).trans ?_
  · refine ⟨?_, hv hq.1.alive.reach hq.2.state h⟩
    refine h.keeps (Q := fun w => Running m p c hh (j * hh) (N * (j * hh)) fuel k' w ∧ Solved hh tick R s (k' * j) w.inst) (fun op hop {w w' x} hq e => ?_) hq
    obtain ⟨w2, o2, e2, hr2⟩ := hq.1.access hm ht hnc (hP.record _ hop)
    rw [e] at e2
    cases e2
    exact ⟨hr2, Solved.passive k hm.ref.eff hrd hq.2 (.inl hq.1.alive.state) (hrec _ hop).1 (hrec _ hop).2 e⟩
  · obtain ⟨out, e⟩ := hg
    rw [hpt, hPh] at e
    obtain ⟨w2, s2, o2, e2, h⟩ := hq.1.doStep hm hh' h0 le_rfl hK hb hf hk
    rw [e] at e2
    cases e2
    refine ⟨(h.resolve_right (by simp)).2, ?_⟩
    rw [Nat.succ_mul]
    have hkN : k' * j + j ≤ N * j := by rw [← Nat.succ_mul]; exact Nat.mul_le_mul_right _ hk
    refine Solved.doStep (fuel := fuel) k hm.ref hh' ht0 ?_ hq.2 hq.1.alive.reach ?_ (out := out) ?_
    · refine lt_of_le_of_lt (mul_le_mul_of_nonneg_right ?_ (by decide +kernel)) hK1
      exact_mod_cast Nat.add_le_add_right hkN 1
    · have h5 := hq.1.steps
      rw [hq.2.nSteps] at h5
      have h6 : fuel * k' + fuel ≤ fuel * N := by rw [← Nat.mul_succ]; exact Nat.mul_le_mul_left _ hk
      omega
    · rw [← e]; congr 3; push_cast; ring
  · obtain ⟨w₁, w₂, w₃, o, t', vs, e, -⟩ := he
    obtain ⟨hs, -, k, -, hl⟩ := doStep_loop hok e (by simp)
    have h3 : w₁.inst.mv.terminateSimulation = false := ((hq.1.alive.reach.call hok e).mv hok hT.inv ⟨rfl, rfl⟩).inst.1
    rw [hl.terminated.1 rfl] at h3
    cases h3
  · rw [hst] at ha
    have hz : w₁.inst.nSteps = 0 := by have := hr.steps; omega
    obtain ⟨t, hT⟩ := hr.ticks
    refine ⟨?_, by simp [hz], by simpa using hstart c l _ _ hc ha⟩
    have : t = ((0 * j : Nat) : Rat) * hh := by rw [hT.grid, hz]; simp
    rw [← this]
    exact hT
  · simp only [hpt]

end FMI2

namespace FMI3
variable {D S : Type} {m : Model XRat D} {p : Profile XRat D} {o : Ode m} {tick : S → S} {R E : S → Comp XRat D → Prop}

theorem Solved.passive (k : Follows o tick R E) (he : m.Eff) (hr : m.ReadsUpTo o.calc') {fuel : Nat} {hh : Rat} {s : S} {i : Nat} {w w' : World XRat D} {op out}
    (h : Solved hh tick R s i w.inst) (hl : w.inst.Lens m) (hs : Started w.inst) (hop : ¬ Interferes op) (hd : op.fn ≠ .doStep)
    (hu : op.fn ≠ .updateDiscreteStates)
    (e : step m fuel w op = .ret (w', .OK, out)) : Solved hh tick R s i w'.inst := by
  have ha := step_alike o he hr hl hs hop hd (fun h => absurd h hu) e
  have ht := passive_times he.okOrError hop hd e
  exact ⟨h.ticks.of_times ht, (congrArg Times.nSteps ht).trans h.nSteps, k.keep h.state ha⟩

theorem Loop.quiet (hm : OkOrError m) {next : XRat} {c c' : Comp XRat D} {ehn n st e r} (h : Loop m next c ehn n c' st e r) (hs : st = .OK)
    (hc : c.eventModeUsed = false) (he : ehn = false) : e = false := by
  induction h with
  | done => exact he
  | step _ e _ ih =>
    subst he
    obtain ⟨h1, h2⟩ := iter_noEventMode hm hc e rfl
    exact ih hs h2 h1
  | leave _ e =>
    subst he
    exact (iter_noEventMode hm hc e rfl).1
  | error => cases hs

theorem Solved.doStep (k : Follows o tick R E) (hm : RefFMU3 m) {fuel : Nat} {hh : Rat} (hh' : m.h = .fin hh) (h0 : tol < hh)
    {s : S} {i j : Nat} (hK : ((i + j + 1 : Nat) : Rat) * tol < 1) {w w' : World XRat D} {x out} (h : Solved hh tick R s i w.inst)
    (hw : ReachableProper m .coSimulation w) (hem : w.inst.eventModeUsed = false) (hn : i + fuel < 2 ^ 64)
    (e : step m fuel w (.doStep (.fin (i * hh)) (.fin (j * hh)) x) = .ret (w', .OK, out))
    (hc : w'.inst.nextCommunicationPoint = .fin (i * hh + j * hh)) : Solved hh tick R s (i + j) w'.inst := by
  have hok := hm.eff.okOrError
  have hh0 : 0 < hh := lt_trans (by decide +kernel) h0
  obtain ⟨n, hnf, hT, hns, hcase⟩ := doStep_ok hok hh' e h.ticks (by rw [h.nSteps]; exact hn)
  have hnj : n = j := by
    rcases hcase with ⟨d, hd, -, -, hcount, hreach⟩ | ⟨hd, -⟩
    · cases hd
      exact Verif.euler_steps_eq rfl h0 hK hcount.before hreach
    · rw [hc, XRat.fin.injEq] at hd
      have : (j : Rat) * hh = n * hh := by linarith
      have := mul_right_cancel₀ hh0.ne' this
      exact_mod_cast this.symm
  obtain ⟨hst, n', c', ehn, r, hnf', hl, rfl, -⟩ := doStep_loop hok e
  simp only [Spec.allowedIn, List.mem_cons, List.not_mem_nil, or_false] at hst
  obtain ⟨hl', hi⟩ := hw.ready o hm
  obtain ⟨k', -, hk', ha1⟩ := hl.advanced hok
  rw [hk' (by simp)] at ha1
  have hf := (hl.follows k hok (by simp) ((Ode.conf_not_early hi hst).ready hl') (show Pending m R E false _ _ from h.state)).2
  rw [hl.quiet hok rfl hem rfl] at hf
  have h2 := ha1.nSteps
  simp only [Comp.times] at h2
  have hns' : c'.nSteps = w.inst.nSteps + n := hns
  rw [hns', h.nSteps] at h2
  have hj : n' = n := by
    split at h2
    · next h4 => subst h4; omega
    · rw [Nat.mod_eq_of_lt (by omega)] at h2; omega
  refine ⟨?_, by rw [hns, h.nSteps, hnj], ?_⟩
  · rwa [hnj, show (i : Rat) * hh + j * hh = ((i + j : Nat) : Rat) * hh by push_cast; ring] at hT
  · rw [← hnj, ← hj, Nat.add_comm, Function.iterate_add_apply]
    exact k.keep (show R _ c' from hf) ⟨⟨rfl, rfl, rfl, rfl, rfl, rfl⟩, .inl rfl, rfl, rfl, rfl⟩

/-- The rows of the program show the abstract states after `0, j, 2 j, …` solver steps. -/
theorem solved_rows (hm : Describes m p) (hT : Timeless m) (k : Follows o tick R E) (hrd : m.ReadsUpTo o.calc')
    {P : Program XRat (Op XRat)} (hP : Fits m p P) (hin : ∀ t, P.inputs t = []) (hst : P.start = [])
    (hrec : ∀ op ∈ P.record, ∃ t, op.fn = .get t) {hh : Rat} (hh' : m.h = .fin hh) (ht0 : tol < hh) {j : Nat} (hj : 0 < j)
    (hPh : P.h = .fin (j * hh)) {N : Nat} (hs : P.stopTime = .fin (N * (j * hh))) (hK1 : ((N * j + 1 : Nat) : Rat) * tol < 1)
    {fuel K n : Nat} (hK : 2 * (N * (j * hh)) + 1 ≤ K * hh) (hf : K < fuel) (hb : fuel * N + K < 2 ^ 64) (hn : N < n) (resource : Ptr UInt8)
    (hneeds : ∀ c l, instantiateCoSimulation m (some "instance1") (some m.token) resource false false false true false true = (some c, l) → p.needs c.ctx)
    {s : S} {v : S → List (Out XRat)}
    (hstart : ∀ c l w vs, instantiateCoSimulation m (some "instance1") (some m.token) resource false false false true false true = (some c, l) →
      AllOK (step m fuel) (.fresh c) [.enterInitializationMode (Arith.lit 0) true P.stopTime, .exitInitializationMode] w vs → R s w.inst)
    (hv : ∀ {w w' vs s}, ReachableProper m .coSimulation w → R s w.inst → AllOK (step m fuel) w P.record w' vs → vs = v s) :
    simulate3 m P fuel n resource = .ret (.OK, (List.range (N + 1)).map fun (k : Nat) => ⟨.fin (k * (j * hh)), v (tick^[k * j] s)⟩) := by
  have hok := hm.ref.eff.okOrError
  have hhp : 0 < hh := lt_trans (by decide +kernel) ht0
  have h0 : 0 < (j : Rat) * hh := mul_pos (by exact_mod_cast hj) hhp
  obtain ⟨c, l, hc⟩ := created hm resource
  have hnc := hneeds c l hc
  obtain ⟨w₀, vs, ha, hr⟩ := started (hh := hh) (h := j * hh) hm hc hnc hP hs (fuel := fuel)
  obtain ⟨-, ht, -, hem, her⟩ := created_ongoing hm hc
  obtain ⟨c', l', w₁, vs', rows, hc', ha', h1, h2⟩ := C65_partial hm hP hh' hPh h0 hs hK hf hb hn resource hneeds
  rw [hc] at hc'
  cases hc'
  obtain ⟨h3, -⟩ : w₁ = w₀ ∧ vs' = vs := by
    exact AllOK.unique ha' ha
  subst h3
  have hpt : ∀ k, P.point k = .fin (k * (j * hh)) := fun k => by rw [Program.point, hPh]; rfl
  rw [h1]
  congr 2
  have hD := drives hm ht hnc hem her hP hh' hPh h0 (le_refl ((N : Rat) * (j * hh))) hK hb hf
  refine (h2.rows (Q := fun k w => Running m p c hh (j * hh) (N * (j * hh)) fuel k w ∧ Solved hh tick R s (k * j) w.inst)
    (v := fun k => v (tick^[k * j] s)) (fun {k' w w' us} hq h => ?_) hin (fun {k' w w'} hk hq hg => ?_) (fun {k' w last} hk hq he => ?_) ⟨hr, ?_⟩).trans ?_
  · refine ⟨?_, hv hq.1.alive.reach hq.2.state h⟩
    refine h.keeps (Q := fun w => Running m p c hh (j * hh) (N * (j * hh)) fuel k' w ∧ Solved hh tick R s (k' * j) w.inst) (fun op hop {w w' x} hq e => ?_) hq
    obtain ⟨w2, o2, e2, hr2⟩ := hq.1.access hm ht hnc (hP.record _ hop)
    rw [e] at e2
    cases e2
    obtain ⟨t, hg⟩ := hrec _ hop
    exact ⟨hr2, Solved.passive k hm.ref.eff hrd hq.2 (hq.1.alive.reach.ready o hm.ref).1 (by rw [Started, hq.1.alive.state]; simp)
      (by simp [Interferes, hg]) (by simp [hg]) (by simp [hg]) e⟩
  · obtain ⟨out, e, hterm⟩ := hg
    rw [hpt, hPh] at e
    obtain ⟨w2, r2, e2, h⟩ := hq.1.doStep hm hnc hem her hh' h0 le_rfl hK hb hf hk
    rw [e] at e2
    cases e2
    have hrun := (h.resolve_right (by rw [hterm]; simp)).2
    refine ⟨hrun, ?_⟩
    rw [Nat.succ_mul]
    have hkN : k' * j + j ≤ N * j := by rw [← Nat.succ_mul]; exact Nat.mul_le_mul_right _ hk
    refine Solved.doStep (fuel := fuel) k hm.ref hh' ht0 ?_ hq.2 hq.1.alive.reach (hq.1.alive.kept.inst.2.2.trans hem) ?_ (out := .step out) (x := ⟨some false, some false, some false, some (Arith.lit 0)⟩) ?_ ?_
    · refine lt_of_le_of_lt (mul_le_mul_of_nonneg_right ?_ (by decide +kernel)) hK1
      exact_mod_cast Nat.add_le_add_right hkN 1
    · have h5 := hq.1.steps
      rw [hq.2.nSteps] at h5
      have h6 : fuel * k' + fuel ≤ fuel * N := by rw [← Nat.mul_succ]; exact Nat.mul_le_mul_left _ hk
      omega
    · rw [← e]; congr 3; push_cast; ring
    · have := congrArg Clock.expected hrun.clock
      simp only [Comp.clock] at this
      rw [this]
      congr 1
      push_cast
      ring
  · obtain ⟨w₁, r, e, hr, -⟩ := he
    have h3 : w₁.inst.mv.terminateSimulation = false := (((hq.1.alive.reach.call e (fun e => by simp [Op.fn] at e)).reachable hok).mv hok hT.inv ⟨rfl, rfl⟩).inst.1
    obtain ⟨-, k, c', ehn, b, -, -, rfl, ho⟩ := doStep_loop hok e
    cases ho
    simp only [Option.some.injEq] at hr
    simp only [hr] at h3
    cases h3
  · rw [hst] at ha
    have hz : w₁.inst.nSteps = 0 := by have := hr.steps; omega
    obtain ⟨t, hT⟩ := hr.ticks
    refine ⟨?_, by simp [hz], by simpa using hstart c l _ _ hc ha⟩
    have : t = ((0 * j : Nat) : Rat) * hh := by rw [hT.grid, hz]; simp
    rw [← this]
    exact hT
  · simp only [hpt]

end FMI3
end Verif
