import Verif.Importer.StateSpace
import Verif.Lemmas.Driver
import Verif.Props.C76
import Verif.Props.C65

/-! # The simulation program of StateSpace -/

set_option linter.unusedSectionVars false

namespace Verif
open Importer.CoSim

namespace StateSpace

section
variable {F : Type} [Arith F] [HasInf F]

/-- Reading an array variable into a larger buffer. -/
theorem get_block_long {ctx : Ctx F} {mv : MV F (Data F)} (hb : inBounds mv.data = true) {vr : Nat} (h1 : 4 ≤ vr) (h2 : vr ≤ 12) {buf : List F}
    (hl : (block (upd mv.data) vr).length ≤ buf.length) :
    getFloat64 ctx mv vr (some buf) (block (upd mv.data) vr).length 0 =
      .ret (calcValues mv, .OK, (some (block (upd mv.data) vr ++ buf.drop (block (upd mv.data) vr).length), (block (upd mv.data) vr).length)) := by
  have key : ∀ v : List F, v.length ≤ buf.length → putBlock ctx (calcValues mv) (some buf) v.length 0 v =
      .ret (calcValues mv, .OK, (some (v ++ buf.drop v.length), v.length)) := by
    intro v hv
    rw [putBlock, assertNValues, if_neg (by omega), writeN_eq _ _ _ (by omega), List.take_zero, List.nil_append, Outcome.ret_bind, Nat.zero_add]
  have hk := key _ hl
  simp only [getFloat64, assertNotNull, Option.isNone_some, Bool.false_eq_true, if_false, calculateValues, guarded, hb, if_true, Outcome.ret_bind]
  have : vr = 4 ∨ vr = 5 ∨ vr = 6 ∨ vr = 7 ∨ vr = 8 ∨ vr = 9 ∨ vr = 10 ∨ vr = 11 ∨ vr = 12 := by omega
  rcases this with rfl | rfl | rfl | rfl | rfl | rfl | rfl | rfl | rfl <;> exact hk

theorem reads_block_long {w : FMI3.World F (Data F)} (hb : inBounds w.inst.mv.data = true) (hs : w.inst.ctx.state ∈ FMI3.Spec.allowedIn (.get .float64))
    {vr : Nat} (h1 : 4 ≤ vr) (h2 : vr ≤ 12) {v : List F} (hv : block (upd w.inst.mv.data) vr = v) {buf : List F} (hl : v.length ≤ buf.length)
    (fuel : Nat) : ∃ w', FMI3.step model fuel w (.get .float64 (some [vr]) 1 (some buf) v.length) =
      .ret (w', .OK, .values .float64 (some (v ++ buf.drop v.length))) := by
  have ha : FMI3.allowed w.inst.ctx FMI3.MASK_Get = true := (FMI3.allowed_fn w.inst.ctx (.get .float64)).2 hs
  have key : ∀ c : Comp F (Data F), inBounds c.mv.data = true → upd c.mv.data = upd w.inst.mv.data →
      ∃ c', getLoop model .float64 (some [vr]) v.length 1 0 c .OK (some buf) 0 =
        .ret (c', .OK, (some (v ++ buf.drop v.length), v.length)) := by
    intro c hc he
    have := get_block_long (ctx := c.ctx) hc h1 h2 (buf := buf) (by rw [he, hv]; exact hl)
    rw [he, hv] at this
    exact ⟨{ c with mv := calcValues c.mv }, by
      simp only [getLoop, Ptr.read, List.getElem?_cons_zero, Outcome.ret_bind]
      show call .OK (c.lift (getFloat64 c.ctx c.mv vr (some buf) v.length 0)) id _ = _
      rw [this]; rfl⟩
  have fin : ∀ c : Comp F (Data F), inBounds c.mv.data = true → upd c.mv.data = upd w.inst.mv.data →
      ∃ c', (getLoop model .float64 (some [vr]) v.length 1 0 c .OK (some buf) 0 >>- fun (c, st, (values, index)) =>
        if st = .Discard ∨ st = .Error ∨ st = .Fatal then .ret (c, st, values)
        else if VType.float64 ≠ .binary ∧ index ≠ v.length then FMI3.fail c "Expected nValues = %zu but was %zu." values
        else .ret (c, st, values)) = .ret (c', .OK, some (v ++ buf.drop v.length)) := by
    intro c hc he
    obtain ⟨c', e⟩ := key c hc he
    exact ⟨c', by rw [e]; simp⟩
  have main : ∃ c', FMI3.getVars model .float64 w.inst (some [vr]) 1 (some buf) v.length = .ret (c', .OK, some (v ++ buf.drop v.length)) := by
    simp only [FMI3.getVars]
    rw [FMI3.begin_ok (mask := FMI3.MASK_Get) ha]
    simp only [Nat.one_ne_zero, if_false, assertNonNull, Option.isNone_some, Bool.false_eq_true, ite_self, refresh]
    split
    · obtain ⟨c', e⟩ := fin (({ w.inst with mv := calcValues w.inst.mv } : Comp F (Data F)).setDirty false) hb (upd_upd _)
      refine ⟨c', ?_⟩
      have : (w.inst.lift ((model (F := F)).calculateValues w.inst.ctx w.inst.mv)) =
          .ret ({ w.inst with mv := calcValues w.inst.mv }, .OK, ()) := by
        simp only [Comp.lift, model, calculateValues, guarded, hb, if_true, Outcome.ret_bind]
      rw [this]
      exact e
    · exact fin w.inst hb rfl
  obtain ⟨c', e⟩ := main
  exact ⟨_, by simp only [FMI3.step, FMI3.World.run]; rw [e]; rfl⟩

end

/-- The instance at the communication point `k`, in which the system `s` was simulated from 0 on. -/
structure Live (s : LinearSystem) (h stop : Rat) (fuel k : Nat) (w : FMI3.World XRat (Data XRat)) : Prop where
  reach : FMI3.ReachableProper model .coSimulation w
  state : w.inst.ctx.state = .stepMode
  clock : w.inst.clock = ⟨.fin (k * h), .fin stop⟩
  ticks : Ticks (1 / 1000) 0 (w.inst.nSteps * (1 / 1000)) w.inst
  near : Near (1 / 1000) (k * h) (w.inst.nSteps * (1 / 1000))
  steps : w.inst.nSteps ≤ fuel * k
  data : ∃ d, Holds d (LinearSystem.next^[w.inst.nSteps] s) ∧ upd w.inst.mv.data = upd d

section
variable {s : LinearSystem} {h stop : Rat} {fuel k : Nat} {w w' : FMI3.World XRat (Data XRat)}

/-- Reading variables. -/
theorem Live.get (hw : Live s h stop fuel k w) {t vr n v nv f o}
    (e : FMI3.step model f w (.get t vr n v nv) = .ret (w', .OK, o)) : Live s h stop fuel k w' ∧ w'.inst.nSteps = w.inst.nSteps := by
  have hok := (RefFMU3.stateSpace (F := XRat)).eff.okOrError
  have hi : ¬ FMI3.Interferes (.get t vr n v nv : FMI3.Op XRat) := by simp [FMI3.Interferes, FMI3.Op.fn]
  have ht := FMI3.passive_times hok hi (by simp [FMI3.Op.fn]) e
  have hn : w'.inst.nSteps = w.inst.nSteps := congrArg Times.nSteps ht
  have hu := FMI3.step_unstirred hi (by simp [FMI3.Op.fn]) _ e
  refine ⟨⟨hw.reach.call e (by simp [FMI3.Op.fn]), ?_, (clock_of_times ht).trans hw.clock, hn ▸ hw.ticks.of_times ht, hn ▸ hw.near,
    hn ▸ hw.steps, ?_⟩, hn⟩
  · obtain ⟨-, h1 | ⟨-, -, h1⟩ | ⟨-, h1, -⟩⟩ := FMI3.step_mode' hok _ e
    · cases h1.1
    · exact h1.trans hw.state
    · cases h1
  · obtain ⟨d, hd, hd'⟩ := hw.data
    rw [hn]
    exact ⟨d, hd, hu.trans hd'⟩

theorem Live.record (hw : Live s h stop fuel k w) (f : Nat) :
    ∃ w', recordVariables model f w = .ret (w', .OK, LinearSystem.vector (LinearSystem.next^[w.inst.nSteps] s).out) ∧
      Live s h stop fuel k w' ∧ w'.inst.nSteps = w.inst.nSteps := by
  have dims : ∀ {w}, Live s h stop fuel k w → dims3 w.inst.mv.data := fun hw => (hw.reach.armed hw.state).dims
  obtain ⟨-, -, r3⟩ := reads_three (dims hw) (by rw [hw.state]; decide)
  obtain ⟨w1, e1⟩ := r3 f (0 : Int)
  obtain ⟨l1, n1⟩ := hw.get e1
  obtain ⟨d, hd, hd'⟩ := l1.data
  rw [n1] at hd
  have hv : block (upd w1.inst.mv.data) 10 = LinearSystem.vector (LinearSystem.next^[w.inst.nSteps] s).out := by
    rw [hd', show block (upd d) 10 = elems d.r (upd d).y from rfl, hd.dims.2.2, elems_vector hd.out]
  obtain ⟨w2, e2⟩ := reads_block_long (inBounds_of (dims l1)) (by rw [l1.state]; decide) (by decide) (by decide) hv
    (buf := List.replicate R_MAX (Arith.lit 0)) (by simp [LinearSystem.vector, R_MAX]) f
  obtain ⟨l2, n2⟩ := l1.get e2
  refine ⟨w2, ?_, l2, n2.trans n1⟩
  unfold recordVariables
  rw [e1, Outcome.ret_bind]
  simp only []
  rw [if_neg (by decide)]
  show (FMI3.step model f w1 (.get .float64 (some [10]) 1 (some (List.replicate R_MAX (Arith.lit 0))) 3) >>- _) = _
  have e2 : FMI3.step model f w1 (.get .float64 (some [10]) 1 (some (List.replicate R_MAX (Arith.lit 0))) 3) = _ := e2
  rw [e2]
  rfl

theorem Live.terminate (hw : Live s h stop fuel k w) (f : Nat) : ∃ w' o, FMI3.step model f w .terminate = .ret (w', .OK, o) := by
  have ha : FMI3.allowed w.inst.ctx FMI3.MASK_Terminate = true := (FMI3.allowed_fn w.inst.ctx .terminate).2 (by rw [hw.state]; decide)
  simp only [FMI3.step, FMI3.World.run, FMI3.terminate]
  rw [FMI3.begin_ok (mask := FMI3.MASK_Terminate) ha]
  exact ⟨_, _, rfl⟩

/-- A step from the communication point `k` on. -/
theorem Live.doStep (h0 : 0 < h) {N K : Nat} (hK : 2 * (N * h) + 1 ≤ K * (1 / 1000 : Rat)) (hb : fuel * N + K < 2 ^ 64) (hf : K < fuel)
    (hk : k < N) (hs : N * h ≤ stop) (hw : Live s h stop fuel k w) :
    ∃ w' r, FMI3.step model fuel w (.doStep (.fin (k * h)) (.fin h) ⟨some false, some false, some false, some (Arith.lit 0)⟩) =
      .ret (w', .OK, .step r) ∧ r.terminateSimulation = some false ∧ Live s h stop fuel (k + 1) w' := by
  have hok := (RefFMU3.stateSpace (F := XRat)).eff.okOrError
  have hkN : ((k : Rat) + 1) * h ≤ N * h := mul_le_mul_of_nonneg_right (by exact_mod_cast hk) h0.le
  have hk0 : (0 : Rat) ≤ k * h := mul_nonneg (by exact_mod_cast Nat.zero_le k) h0.le
  have ht0 : (0 : Rat) ≤ w.inst.nSteps * (1 / 1000) := mul_nonneg (by exact_mod_cast Nat.zero_le _) (by decide +kernel)
  have hfk : fuel * k + fuel ≤ fuel * N := by rw [← Nat.mul_succ]; exact Nat.mul_le_mul_left _ hk
  have hsteps := hw.steps
  have hh : (model : Model XRat _).h = .fin (1 / 1000) := rfl
  have hq : (XRat.fin (k * h)) +. .fin h = .fin ((k + 1 : Nat) * h) := by rw [XRat.add_fin]; congr 1; push_cast; ring
  let out : FMI3.StepOut XRat := ⟨some false, some false, some false, some (Arith.lit 0)⟩
  have acc : w.inst.clock.Accepts (.fin (k * h)) (.fin h) :=
    .mk (e := k * h) (by rw [hw.clock]) (.refl _) h0 (.inr ⟨stop, by rw [hw.clock], .inl (by linarith)⟩)
  obtain ⟨k1, k2, k3⟩ := acc.checks
  have hal : FMI3.allowed w.inst.ctx FMI3.MASK_DoStep = true := (FMI3.allowed_fn _ .doStep).2 (by rw [hw.state]; decide)
  have key : (FMI3.doStepLoop model (.fin ((k : Rat) * h + h)) out fuel w.inst .OK false).Ends :=
    FMI3.loop_ends RefFMU3.stateSpace.ends hok hh (by decide +kernel) hw.ticks (K := K) (by omega)
      (by rw [abs_of_nonneg (by linarith)]; linarith) hf
  have hends : (FMI3.step model fuel w (.doStep (.fin (k * h)) (.fin h) out)).Ends := by
    simp only [FMI3.step, FMI3.doStep, FMI3.begin, beginFunction]
    rw [if_pos hal, if_neg (by simpa [Comp.clock] using k1), if_neg (by simpa using k2), if_neg (by simpa [Comp.clock] using k3)]
    exact .bind (.ite .ub key) fun _ => .ret _
  obtain ⟨⟨w', st, o⟩, e⟩ := Outcome.exists_ret hends fun e =>
    FMI3.C45_stateSpace_partial (hw.reach.reachable hok) (op := .doStep (.fin (k * h)) (.fin h) out) (by simp [FMI3.WellFormed, out]) trivial ⟨fuel, e⟩
  have harm := hw.reach.armed hw.state
  have hst : st = .OK := by
    have e := e
    simp only [FMI3.step, FMI3.World.run, FMI3.doStep, FMI3.begin, beginFunction] at e
    obtain ⟨⟨c', s', u⟩, e1, e⟩ := Outcome.bind_eq_ret.1 e
    cases e
    rw [if_pos hal, if_neg (by simpa [Comp.clock] using k1), if_neg (by simpa using k2),
      if_neg (by simpa [Comp.clock] using k3)] at e1
    split at e1
    · cases e1
    · obtain ⟨n, c1, s1, ehn, r, -, hl, hf⟩ := FMI3.Loop.of_eq hok e1
      obtain ⟨rfl, -⟩ := hl.armed rfl harm
      unfold FMI3.finish FMI3.doStepEnd at hf
      rw [if_pos rfl] at hf
      split at hf
      · cases hf
      · cases hf; rfl
  subst hst
  obtain ⟨-, n, c', ehn, r, hn, hl, rfl, rfl⟩ := FMI3.doStep_loop hok e
  obtain ⟨-, rfl, rfl, harm', hd⟩ := hl.armed rfl harm
  rw [hq] at hl
  obtain ⟨⟨t1, t2, t3⟩, t4⟩ := hl.count hok hh rfl (by simp) hw.ticks (by omega)
  have hn' : ((c'.nSteps : Rat)) * (1 / 1000) = w.inst.nSteps * (1 / 1000) + n * (1 / 1000) := by rw [t2]; push_cast; ring
  refine ⟨_, _, e, by rw [harm'.term], hw.reach.call e (by simp [FMI3.Op.fn]), (hl.state hok rfl).trans hw.state, ?_, ?_, ?_, ?_, ?_⟩
  · have hcl : c'.clock = w.inst.clock := hl.clock hok
    rw [hw.clock] at hcl
    have hst : c'.stopTime = .fin stop := congrArg Clock.stop hcl
    change Clock.mk (XRat.fin (k * h) +. XRat.fin h) c'.stopTime = _
    rw [hq, hst]
  · rw [hn']
    exact ⟨t1.start, t1.time, t1.grid⟩
  · rw [hn']
    refine ⟨(t4 rfl).1, ?_⟩
    cases n with
    | zero =>
      simp only [Nat.cast_zero, zero_mul, add_zero]
      have hkk : (k : Rat) * h ≤ ((k + 1 : Nat) : Rat) * h := by push_cast; linarith
      rcases hw.near.2 with h1 | h1
      · exact .inl (h1.trans hkk)
      · by_cases h2 : (w.inst.nSteps : Rat) * (1 / 1000) ≤ ((k + 1 : Nat) : Rat) * h
        · exact .inl h2
        · exact .inr (h1.symm.between' hkk (not_le.1 h2).le).symm
    | succ n => exact Count.last ⟨t1, t2, t3⟩
  · show c'.nSteps ≤ _
    rw [t2, Nat.mul_succ]; omega
  · obtain ⟨d, h1, h2⟩ := hw.data
    refine ⟨eulers n d, ?_, hd.trans (eulers_upd n h2)⟩
    show Holds _ (LinearSystem.next^[c'.nSteps] s)
    rw [t2, Nat.add_comm, Function.iterate_add_apply]
    exact h1.eulers n

end

/-- Creation and initialization. -/
theorem live_start (stop : Rat) (resource : Ptr UInt8) {h : Rat} (fuel : Nat) :
    ∃ c l w, FMI3.instantiateCoSimulation (model : Model XRat (Data XRat)) (some "instance1") (some (model : Model XRat (Data XRat)).token) resource
        false false false true false true = (some c, l) ∧
      AllOK (apiStateSpace model fuel (.fin h)).call (.fresh c) [.call (.enterInitializationMode (Arith.lit 0) true (.fin stop)),
        .call .exitInitializationMode] w [[], []] ∧ Live FMI3.startSystem h stop fuel 0 w := by
  have hok := (RefFMU3.stateSpace (F := XRat)).eff.okOrError
  obtain ⟨c, l, hc⟩ : ∃ c l, FMI3.instantiateCoSimulation (model : Model XRat (Data XRat)) (some "instance1")
    (some (model : Model XRat (Data XRat)).token) resource false false false true false true = (some c, l) := ⟨_, _, rfl⟩
  obtain ⟨w1, w2, e1, e2, hs⟩ : ∃ w1 w2, FMI3.step model fuel (.fresh c) (.enterInitializationMode (Arith.lit 0) true (.fin stop)) =
      .ret (w1, .OK, .unit) ∧ FMI3.step model fuel w1 .exitInitializationMode = .ret (w2, .OK, .unit) ∧ w2.inst.ctx.state = .stepMode := by
    cases hc
    refine ⟨?x, ?y, ?a, ?b, ?d⟩
    case a => with_unfolding_all rfl
    case b => with_unfolding_all rfl
    case d => with_unfolding_all rfl
  have h0 : FMI3.ReachableProper (model : Model XRat (Data XRat)) .coSimulation (.fresh c) :=
    .new (.cs hc) ⟨rfl, fun _ => rfl, fun _ _ e => by cases e⟩
  have h1 := h0.call e1 (by simp [FMI3.Op.fn])
  have h2 := h1.call e2 (by simp [FMI3.Op.fn])
  obtain ⟨s1, s2, s3, s4⟩ := FMI3.init_start hok (h0.reachable hok) e1
  have tt := FMI3.passive_times hok (by simp [FMI3.Interferes, FMI3.Op.fn]) (by simp [FMI3.Op.fn]) e2
  have hn : w2.inst.nSteps = 0 := (congrArg Times.nSteps tt).trans s1
  refine ⟨c, l, w2, hc, .cons (w₁ := w1) ?_ (.cons ?_ .nil), h2, hs, ?_, ?_, ?_, ?_, ?_⟩
  · simp only [apiStateSpace, e1, Outcome.ret_bind]
  · simp only [apiStateSpace, e2, Outcome.ret_bind]
  · rw [show w2.inst.clock = w1.inst.clock from clock_of_times tt, s4]; simp
  · exact Ticks.of_times (c := w1.inst) ⟨s3, by rw [s2, hn]; simp, by rw [hn, s1]; simp⟩ tt
  · rw [hn]
    refine ⟨by norm_num, .inl (by norm_num)⟩
  · rw [hn]; exact Nat.zero_le _
  · have hu : FMI3.Untouched (model : Model XRat (Data XRat)) w2 := ⟨_, c, .fresh c, .cs hc, ⟨rfl, fun _ => rfl, fun _ _ e => by cases e⟩,
        .call (.call .none (by simp [FMI3.Leaves, FMI3.Op.fn]) e1) (by simp [FMI3.Leaves, FMI3.Op.fn]) e2⟩
    obtain ⟨ctx, mv, -, hd⟩ := hu.started RefFMU3.stateSpace.eff reads_upTo
    rw [hn]
    exact ⟨_, FMI3.start_holds ctx mv, hd⟩

/-- The loop from the communication point `k` on, with the numbers `n` of solver steps at the communication points. -/
theorem loop_rows {s : LinearSystem} {h : Rat} (h0 : 0 < h) {N K fuel : Nat} (hK : 2 * (N * h) + 1 ≤ K * (1 / 1000 : Rat)) (hb : fuel * N + K < 2 ^ 64)
    (hf : K < fuel) : ∀ {p k : Nat} {w : FMI3.World XRat (Data XRat)} {rows : List (Row XRat (List XRat))}, k ≤ N → N < k + p →
    Live s h (N * h) fuel k w →
    ∃ n : Nat → Nat, (∀ j, k ≤ j → j ≤ N → Near (1 / 1000) (j * h) (n j * (1 / 1000))) ∧
      loop (apiStateSpace model fuel (.fin h)) (programStateSpace (.fin h) (.fin (N * h))) p k w rows =
        .ret (.OK, rows ++ (List.range' k (N + 1 - k)).map fun j => ⟨.fin (j * h), [LinearSystem.vector (LinearSystem.next^[n j] s).out]⟩) := by
  intro p
  induction p with
  | zero => intro k w rows h1 h2; omega
  | succ p ih =>
    intro k w rows hk hp hw
    obtain ⟨w1, e1, l1, n1⟩ := hw.record fuel
    have hrow : (List.range' k (N + 1 - k)) = k :: List.range' (k + 1) (N - k) := by
      rw [show N + 1 - k = (N - k) + 1 by omega]; rfl
    have a1 : AllOK (apiStateSpace model fuel (.fin h)).call w [.recordVariables] w1
        [LinearSystem.vector (LinearSystem.next^[w.inst.nSteps] s).out] := .cons e1 .nil
    have hstop := stop_iff (P := programStateSpace (.fin h) (.fin (N * h))) (h := h) rfl h0 rfl k hk
    have hpt : Program.point (programStateSpace (XRat.fin h) (XRat.fin (N * h))) k = XRat.fin (k * h) := rfl
    rw [hpt] at hstop
    unfold loop
    simp only []
    rw [show (programStateSpace (XRat.fin h) (.fin (N * h))).record = [.recordVariables] from rfl, CALLS_ok a1]
    change ∃ n : Nat → Nat, _ ∧ (if (XRat.fin (N * h) <=. .fin (k * h)) = true then _ else _) = _
    rw [show (XRat.fin (N * h) <=. .fin (k * h)) = decide (k = N) from hstop]
    by_cases hkN : k = N
    · subst hkN
      obtain ⟨w2, o, e2⟩ := l1.terminate fuel
      have e3 : (apiStateSpace model fuel (.fin h)).call w1 (apiStateSpace model fuel (.fin h)).terminate = .ret (w2, .OK, []) := by
        simp only [apiStateSpace, e2, Outcome.ret_bind]
      rw [if_pos (by simp), tearDown_ok e3]
      refine ⟨fun _ => w.inst.nSteps, ?_, ?_⟩
      · intro j h1 h2
        obtain rfl : j = k := by omega
        exact hw.near
      · rw [hrow, show k - k = 0 by omega]; rfl
    · rw [if_neg (by simpa using hkN)]
      obtain ⟨w2, r, e2, hr, l2⟩ := l1.doStep h0 hK hb hf (by omega) (le_refl _)
      obtain ⟨n, hn, hl⟩ := ih (rows := rows ++ [⟨.fin (k * h), [LinearSystem.vector (LinearSystem.next^[w.inst.nSteps] s).out]⟩])
        (by omega) (by omega) l2
      refine ⟨fun j => if j = k then w.inst.nSteps else n j, ?_, ?_⟩
      · intro j h1 h2
        by_cases hj : j = k
        · subst hj; simpa using hw.near
        · simp only [if_neg hj]; exact hn j (by omega) h2
      · change (advance3 model fuel (.fin h) w1 (.fin (k * h)) >>- _) = _
        simp only [advance3, e2, Outcome.ret_bind, hr]
        simp only [if_true, Option.some.injEq, Bool.false_eq_true, if_false]
        refine hl.trans ?_
        rw [hrow, List.append_assoc, show N + 1 - (k + 1) = N - k by omega]
        congr 3
        simp only [List.map_cons, if_true, List.singleton_append]
        congr 1
        apply List.map_congr_left
        intro j hj
        rw [List.mem_range'_1] at hj
        rw [if_neg (by omega)]

end StateSpace
end Verif
