import Verif.Lemmas.Fed
import Verif.Props.C66Inputs
import Verif.Props.C81

/-!
# C81 What the Model Exchange programs for Feedthrough record

See properties.jsonl. `Verif.FeedthroughRows` has the signals that the programs feed into the FMU and the rows that show them.
-/

set_option linter.unusedSectionVars false

namespace Verif
open Importer.CoSim Importer.Euler FeedthroughRows

theorem feedthrough_input (t : Rat) (b : Bool) : inputValue (XRat.fin t) b = .fin (signal b t) := by
  unfold inputValue signal
  change (if decide (t < 1 / 2) = true then XRat.fin 0 else if decide (t ≤ 1 / 2) = true then (if b = true then XRat.fin 2 else XRat.fin 0)
    else if decide (t < 1) = true then XRat.fin (2 - 2 * (t - 1 / 2)) else XRat.fin 1) = _
  simp only [decide_eq_true_eq]
  by_cases h1 : t < 1 / 2
  · rw [if_pos h1, if_pos h1]
  · rw [if_neg h1, if_neg h1]
    by_cases h2 : t ≤ 1 / 2
    · rw [if_pos h2, if_pos (le_antisymm h2 (not_lt.1 h1))]
      cases b <;> rfl
    · rw [if_neg h2, if_neg (fun h : t = 1 / 2 => h2 h.le)]
      by_cases h3 : t < 1
      · rw [if_pos h3, if_pos h3]; congr 1; ring
      · rw [if_neg h3, if_neg h3]

theorem feedthrough_next (t : Rat) : ((nextInput (XRat.fin t) : XRat) <=. XRat.fin t) = changesAt t := by
  have e : nextInput (XRat.fin t) = if t ≤ 1 / 2 then XRat.fin (1 / 2) else if t ≤ 1 then XRat.fin 1 else if t ≤ 3 / 2 then XRat.fin (3 / 2) else .pinf := by
    unfold nextInput
    change (if decide (t ≤ 1 / 2) = true then _ else if decide (t ≤ 1) = true then _ else if decide (t ≤ 3 / 2) = true then _ else _) = _
    simp only [decide_eq_true_eq]
    rfl
  have le : ∀ a : Rat, (XRat.fin a <=. XRat.fin t) = decide (a ≤ t) := fun _ => rfl
  rw [e, changesAt]
  by_cases h1 : t ≤ 1 / 2
  · rw [if_pos h1, le, Bool.eq_iff_iff]
    simp only [Bool.or_eq_true, decide_eq_true_eq]
    exact ⟨fun h => .inl (.inl (le_antisymm h1 h)), by rintro ((rfl | rfl) | rfl) <;> first | (norm_num at h1; done) | norm_num⟩
  · rw [if_neg h1]
    by_cases h2 : t ≤ 1
    · rw [if_pos h2, le, Bool.eq_iff_iff]
      simp only [Bool.or_eq_true, decide_eq_true_eq]
      exact ⟨fun h => .inl (.inr (le_antisymm h2 h)), by rintro ((rfl | rfl) | rfl) <;> first | (norm_num at h1; done) | (norm_num at h2; done) | norm_num⟩
    · rw [if_neg h2]
      by_cases h3 : t ≤ 3 / 2
      · rw [if_pos h3, le, Bool.eq_iff_iff]
        simp only [Bool.or_eq_true, decide_eq_true_eq]
        exact ⟨fun h => .inr (le_antisymm h3 h), by rintro ((rfl | rfl) | rfl) <;> first | (norm_num at h1; done) | (norm_num at h2; done) | norm_num⟩
      · rw [if_neg h3]
        change false = _
        rw [eq_comm, Bool.eq_false_iff]
        simp only [ne_eq, Bool.or_eq_true, decide_eq_true_eq]
        rintro ((rfl | rfl) | rfl) <;> first | (norm_num at h1; done) | (norm_num at h2; done) | norm_num at h3

theorem held_succ {h : Rat} (h0 : 0 < h) (k : Nat) : held h (k + 1) = if changesAt (k * h) then phase (k * h) else held h k := by
  unfold held changesAt phase
  rw [List.range_succ, List.any_append]
  simp only [List.any_cons, List.any_nil, Bool.or_false]
  by_cases h1 : (k : Rat) * h = 1
  · simp [h1]
  · by_cases h2 : (k : Rat) * h = 3 / 2
    · simp [h2]; norm_num
    · by_cases h3 : (k : Rat) * h = 1 / 2
      · have hn : ((List.range k).any fun (i : Nat) => decide ((i : Rat) * h = 1) || decide ((i : Rat) * h = 3 / 2)) = false := by
          rw [Bool.eq_false_iff]
          intro ha
          rw [List.any_eq_true] at ha
          obtain ⟨i, hi, ha⟩ := ha
          have hik : (i : Rat) * h < k * h := mul_lt_mul_of_pos_right (by exact_mod_cast List.mem_range.1 hi) h0
          simp only [Bool.or_eq_true, decide_eq_true_eq] at ha
          rcases ha with ha | ha <;> (rw [ha, h3] at hik; norm_num at hik)
        rw [hn]
        simp [h3]
        norm_num
      · rw [decide_eq_false h1, decide_eq_false h2, decide_eq_false h3]; simp

/-- If the step size divides 0.5, then the discrete signals change in the second row for the time 1. -/
theorem held_eq {h : Rat} (h0 : 0 < h) {n : Nat} (hn : n * h = 1 / 2) (k : Nat) : held h k = if (k : Rat) * h ≤ 1 then .before else .after := by
  unfold held
  by_cases hk : (k : Rat) * h ≤ 1
  · rw [if_pos hk, if_neg]
    intro ha
    rw [List.any_eq_true] at ha
    obtain ⟨i, hi, ha⟩ := ha
    have hik : (i : Rat) * h < k * h := mul_lt_mul_of_pos_right (by exact_mod_cast List.mem_range.1 hi) h0
    simp only [Bool.or_eq_true, decide_eq_true_eq] at ha
    rcases ha with ha | ha <;> rw [ha] at hik <;> linarith
  · rw [if_neg hk, if_pos]
    rw [List.any_eq_true]
    have e : ((2 * n : Nat) : Rat) * h = 1 := by push_cast; linarith
    refine ⟨2 * n, ?_, by rw [decide_eq_true e]; rfl⟩
    rw [List.mem_range]
    by_contra hlt
    have : (k : Rat) * h ≤ (2 * n : Nat) * h := mul_le_mul_of_nonneg_right (by exact_mod_cast not_lt.1 hlt) h0.le
    rw [e] at this
    exact hk this

theorem timeAfter_rat (h : Rat) (k : Nat) : timeAfter (XRat.fin h) k = .fin (k * h) := by
  unfold timeAfter
  split
  · next hk => subst hk; change XRat.fin 0 = _; simp
  · rfl

theorem fedTo_feedthrough {O : Type} {inp : Inputs XRat O} (hi : inp.next = nextInput) {h : Rat} (h0 : 0 < h) (k : Nat) :
    fedTo inp (fun t a (s : XRat × Phase) => (inputValue t a, s.2)) (fun t s => (s.1, phaseAt t)) (.fin h) (.fin (signal false 0), .before) k =
      (.fin (signal false (k * h)), held h k) := by
  induction k with
  | zero => simp [fedTo, held]
  | succ k ih =>
    unfold fedTo
    rw [ih, timeAfter_rat, timeAfter_rat, feedthrough_input]
    unfold handled
    rw [hi, feedthrough_next, held_succ h0]
    simp only [phaseAt_fin]
    split <;> rfl

theorem rowsAt_feedthrough {O V : Type} {inp : Inputs XRat O} (hi : inp.next = nextInput) (row : XRat → Phase → List V) {h : Rat} (h0 : 0 < h) (N : Nat) :
    ((List.range (N + 1)).flatMap (rowsAt inp (fun t a (s : XRat × Phase) => (inputValue t a, s.2)) (fun t s => (s.1, phaseAt t)) (.fin h)
      (.fin (signal false 0), .before) fun s => row s.1 s.2)) = rowsME (fun x p => row (.fin x) p) h (held h) N := by
  unfold rowsME
  congr 1
  funext k
  unfold rowsAt
  simp only [fedTo_feedthrough hi h0, timeAfter_rat, hi, feedthrough_next, feedthrough_input, phaseAt_fin]

namespace FMI3
section
variable {F : Type} [Arith F] [HasInf F] {c₀ : Comp F (Feedthrough.Data F)}

theorem fed_feedthrough (f32 : F → UInt32) (hc : c₀.ctx.typ = .modelExchange) {h stop : F} {b : Bool} :
    Fed (Importer.Euler.api3 (Feedthrough.model true) []) (Importer.CoSim.calls (FMI3.step (Feedthrough.model true) 0) (feedthrough3 f32).record)
      (FMI3.step (Feedthrough.model true) 0) (feedthroughInputs3 f32)
      (fun (s : F × Phase) w => Ongoing (Feedthrough.model true) (.feedthrough true) c₀ .eventMode w ∧ Feedthrough.shows3 w.inst.mv.data = row3 (f32 s.1) s.1 s.2)
      (fun (s : F × Phase) w => Ongoing (Feedthrough.model true) (.feedthrough true) c₀ .continuousTimeMode w ∧ Feedthrough.shows3 w.inst.mv.data = row3 (f32 s.1) s.1 s.2)
      (fun w => ∃ w' v, FMI3.step (Feedthrough.model true) 0 w .terminate = .ret (w', .OK, v)) (fun s => row3 (f32 s.1) s.1 s.2)
      (fun t a s => (inputValue t a, s.2)) (fun t s => (s.1, phaseAt t)) := by
  have D := drivesME (m := Feedthrough.model true) (p := .feedthrough true) .feedthrough hc trivial (gets_feedthrough f32) (cfg := ⟨0, 0, h, stop, b⟩) (.inl rfl) (.inl rfl)
  have G := feeds (m := Feedthrough.model true) (p := .feedthrough true) (c₀ := c₀) .feedthrough hc trivial (legal_feedthrough f32)
  have keep : ∀ {w w' : World F (Feedthrough.Data F)} {op : Op F} {s o} {r}, ¬ changes op.fn → step (Feedthrough.model true) 0 w op = .ret (w', s, o) →
      Feedthrough.shows3 w.inst.mv.data = r → Feedthrough.shows3 w'.inst.mv.data = r := fun hX e hs => (Feedthrough.shows3_eq (keep_feed hX e)).trans hs
  constructor
  case update =>
    intro s w i ⟨hE, hs⟩
    obtain ⟨w', i', e, h1, h2, -, h4⟩ := D.update (i := i) hE
    obtain ⟨h2, h3⟩ := h2 .feedthrough
    refine ⟨w', i', e, h1, h3, h2, h4 h3, ?_⟩
    obtain ⟨⟨w1, st, o⟩, e1, e2⟩ := Outcome.bind_eq_ret.1 e
    cases e2
    exact keep (by simp [Op.fn, changes]) e1 hs
  case enterCT =>
    intro s w ⟨hE, hs⟩
    obtain ⟨w', e, h1⟩ := D.enterCT hE
    refine ⟨w', e, h1, ?_⟩
    obtain ⟨⟨w1, st, o⟩, e1, e2⟩ := Outcome.bind_eq_ret.1 e
    cases e2
    exact keep (by simp [Op.fn, changes]) e1 hs
  case enterEM =>
    intro s w ⟨hE, hs⟩
    obtain ⟨w', e, h1⟩ := D.enterEM hE
    refine ⟨w', e, h1, ?_⟩
    obtain ⟨⟨w1, st, o⟩, e1, e2⟩ := Outcome.bind_eq_ret.1 e
    cases e2
    exact keep (by simp [Op.fn, changes]) e1 hs
  case setTime =>
    intro s w t ⟨hE, hs⟩
    obtain ⟨w', e, h1⟩ := setTimeME (m := Feedthrough.model true) (p := .feedthrough true) .feedthrough hc trivial (t := t) hE
    refine ⟨w', e, h1, ?_⟩
    obtain ⟨⟨w1, st, o⟩, e1, e2⟩ := Outcome.bind_eq_ret.1 e
    cases e2
    exact keep (by simp [Op.fn, changes]) e1 hs
  case completed =>
    intro s w a b ⟨hE, hs⟩
    obtain ⟨w', e, h1⟩ := D.completed (a := a) (b := b) hE
    refine ⟨w', e, h1, ?_⟩
    obtain ⟨⟨w1, st, o⟩, e1, e2⟩ := Outcome.bind_eq_ret.1 e
    have e3 := (Prod.mk.inj (Outcome.ret.inj e2)).1
    cases e3
    exact keep (by simp [Op.fn, changes]) e1 hs
  case record =>
    intro s w ⟨hE, hs⟩
    obtain ⟨w', vs, e, h1, -⟩ := D.record hE
    obtain ⟨e1, e2⟩ := records_feed f32 (.of_calls e)
    exact ⟨w', (e1.trans hs) ▸ e, h1, (Feedthrough.shows3_eq e2).trans hs⟩
  case stop => exact fun h => D.stop h.1
  case continuousC =>
    intro s w t ⟨hE, hs⟩
    obtain ⟨w', vs, e, h1⟩ := G.continuousC t hE
    exact ⟨w', vs, e, h1, continuous_feed (.of_calls e) hs⟩
  case continuousE =>
    intro s w t ⟨hE, hs⟩
    obtain ⟨w', vs, e, h1⟩ := G.continuousE t hE
    exact ⟨w', vs, e, h1, continuous_feed (.of_calls e) hs⟩
  case discreteE =>
    intro s w t ⟨hE, hs⟩
    obtain ⟨w', vs, e, h1⟩ := G.discreteE t hE
    exact ⟨w', vs, e, h1, discrete_feed f32 (.of_calls e) hs⟩

end

/-- **C81**, Model Exchange with FMI 3.0: the program runs to completion. The rows show the signals at the time of the row, before and after the events of the
inputs; the discrete signals change at events only, and an event is handled only if its time is a multiple of the step size, see `C81_me` and
`C81_violated_missed`. -/
theorem C81_me_rows (f32 : XRat → UInt32) {h stop : Rat} (h0 : 0 < h) {N fuel n : Nat} (hs : stop ≤ N * h) (hk : ∀ k < N, k * h < stop) (hN : N < 2 ^ 64)
    (hf : 0 < fuel) (hn : N < n) (resource : Ptr UInt8) :
    simulate3With (Feedthrough.model true) .built { feedthrough3 f32 with h := .fin h, stopTime := .fin stop } (feedthroughInputs3 f32) fuel n resource =
      .ret (.OK, rowsME (fun x p => row3 (f32 (.fin x)) (.fin x) p) h (held h) N) := by
  obtain ⟨c, l, hc⟩ := createdME (m := (Feedthrough.model true : Model XRat _)) .feedthrough rfl resource
  obtain ⟨ht, w₀, vs, ha, ho⟩ := startedWith (p := .feedthrough true) .feedthrough hc trivial (legal_feedthrough f32) (stop := .fin stop)
  have hshow : Feedthrough.shows3 w₀.inst.mv.data = row3 (f32 (.fin (signal false 0))) (.fin (signal false 0)) .before := by
    have ha' := ha
    rw [List.append_assoc, List.append_assoc, List.append_assoc] at ha'
    obtain ⟨w₁, u, v, a1, a2⟩ := AllOK.split ha'
    obtain ⟨w₂, u, v, a3, a4⟩ := AllOK.split a2
    obtain ⟨w₃, u, v, a5, a6⟩ := AllOK.split a4
    obtain ⟨w₄, u, v, a7, a8⟩ := AllOK.split a6
    cases a3 with
    | cons e1 a3 =>
      cases a3
      cases a8 with
      | cons e2 a8 =>
        cases a8
        refine (Feedthrough.shows3_eq (keep_feed (by simp [Op.fn, changes]) e2)).trans ?_
        have k1 := (Feedthrough.shows3_eq (keep_feed (by simp [Op.fn, changes]) e1)).trans (start_feed a1)
        have k2 : Feedthrough.shows3 (World.fresh c).inst.mv.data = row3 0 (.fin 0) .start := by cases hc; exact shows_start3
        have k3 := discrete_feed f32 a7 (continuous_feed a5 (k1.trans k2))
        rw [k3, show (Arith.lit 0 : XRat) = .fin 0 from rfl, feedthrough_input, phaseAt_fin]
        congr 1
  obtain ⟨s, e, hE⟩ := fed_simulate (fed_feedthrough f32 ht (h := .fin h) (stop := .fin stop) (b := false)) (cfg := ⟨0, 0, .fin h, .fin stop, false⟩) rfl rfl hf hN
    (stop_after h0 hs hk) (s₀ := (.fin (signal false 0), .before)) ⟨ho, hshow⟩ hn
  obtain ⟨w', v, et⟩ := hE.mode
  unfold simulate3With
  rw [hc]
  simp only []
  rw [CALLS_ok (api := Importer.CoSim.api3 (Feedthrough.model true) 0 (.fin h)) ha]
  have e' := e
  rw [show (Importer.Euler.Config.mk 0 0 (XRat.fin h) (XRat.fin stop) false) = ⟨Macros.built.nx, Macros.built.nz, XRat.fin h, XRat.fin stop, false⟩ from rfl] at e'
  rw [show ({ feedthrough3 f32 with h := XRat.fin h, stopTime := XRat.fin stop } : Program XRat (Op XRat)).record = (feedthrough3 f32).record from rfl, e']
  simp only [Outcome.ret_bind, Bool.false_eq_true, if_false, hE.status]
  rw [tearDown_ok (api := Importer.CoSim.api3 (Feedthrough.model true) 0 (.fin h)) et, hE.rows]
  rw [rowsAt_feedthrough rfl (fun x p => row3 (f32 x) x p) h0]

/-- **C81**, Model Exchange with FMI 3.0, for the step sizes that divide 0.5: the rows show the signals at the time of the row, before and after the events. -/
theorem C81_me (f32 : XRat → UInt32) {h stop : Rat} (h0 : 0 < h) {d : Nat} (hd : d * h = 1 / 2) {N fuel n : Nat} (hs : stop ≤ N * h) (hk : ∀ k < N, k * h < stop)
    (hN : N < 2 ^ 64) (hf : 0 < fuel) (hn : N < n) (resource : Ptr UInt8) :
    simulate3With (Feedthrough.model true) .built { feedthrough3 f32 with h := .fin h, stopTime := .fin stop } (feedthroughInputs3 f32) fuel n resource =
      .ret (.OK, rowsME (fun x p => row3 (f32 (.fin x)) (.fin x) p) h (fun k => if (k : Rat) * h ≤ 1 then .before else .after) N) := by
  rw [C81_me_rows f32 h0 hs hk hN hf hn resource, show held h = _ from funext fun k => held_eq h0 hd k]

/-- The numbers of the example program: 24 rows. The rows for 0.5 show 0 and 2, those for 1 show the discrete signals before and after the change. -/
example (f32 : XRat → UInt32) (resource : Ptr UInt8) :
    simulate3With (Feedthrough.model true) .built { feedthrough3 f32 with h := .fin (1 / 10), stopTime := .fin 2 } (feedthroughInputs3 f32) 1 21 resource =
      .ret (.OK, rowsME (fun x p => row3 (f32 (.fin x)) (.fin x) p) (1 / 10) (fun k => if (k : Rat) * (1 / 10) ≤ 1 then .before else .after) 20) :=
  C81_me f32 (by decide +kernel) (d := 5) (by decide +kernel) (N := 20) (by decide +kernel) (by decide +kernel) (by decide) (by decide) (by decide) resource

/-- The step size and the stop time of the program. -/
example (f32 : XRat → UInt32) : (feedthrough3 f32).h = XRat.fin (1 / 10) ∧ (feedthrough3 f32).stopTime = XRat.fin 2 := ⟨rfl, rfl⟩

example : rowsME (fun x p => [(x, p)]) (1 / 4) (fun k => if (k : Rat) * (1 / 4) ≤ 1 then .before else .after) 5 =
    [⟨.fin 0, [(0, .before)]⟩, ⟨.fin (1 / 4), [(0, .before)]⟩, ⟨.fin (1 / 2), [(0, .before)]⟩, ⟨.fin (1 / 2), [(2, .before)]⟩, ⟨.fin (3 / 4), [(3 / 2, .before)]⟩,
      ⟨.fin 1, [(1, .before)]⟩, ⟨.fin 1, [(1, .after)]⟩, ⟨.fin (5 / 4), [(1, .after)]⟩] := by decide +kernel

/-- The claim of C81 that fails for other step sizes: the discrete outputs show the signals that the program has for their inputs, which change at the time 1. With the
step size 0.7 no event is handled, since the program compares the next event time with the time only after it has passed; `nextInputEventTime` then
returns the one after it. The last row, for the time 2.1, shows the discrete signals as they were before the time 1. -/
theorem C81_violated_missed (f32 : XRat → UInt32) (resource : Ptr UInt8) : ∃ rows,
    simulate3With (Feedthrough.model true) .built { feedthrough3 f32 with h := .fin (7 / 10), stopTime := .fin (21 / 10) } (feedthroughInputs3 f32) 1 4 resource =
      .ret (.OK, rows) ∧ rows.getLast? = some ⟨.fin (21 / 10), row3 (f32 (.fin 1)) (.fin 1) .before⟩ ∧ phase (21 / 10) = .after := by
  refine ⟨_, C81_me_rows f32 (N := 3) (by decide +kernel) (by decide +kernel) (by decide +kernel) (by decide) (by decide) (by decide) resource, ?_, by decide +kernel⟩
  have e1 : ((3 : Nat) : Rat) * (7 / 10) = 21 / 10 := by decide +kernel
  have e2 : signal false (21 / 10) = 1 := by decide +kernel
  have e3 : held (7 / 10) 3 = .before := by decide +kernel
  have e4 : changesAt (21 / 10) = false := by decide +kernel
  unfold rowsME
  rw [List.range_succ, List.flatMap_append]
  simp only [List.flatMap_cons, List.flatMap_nil, List.append_nil, e1, e2, e3, e4, Bool.false_eq_true, if_false, List.getLast?_append, List.getLast?_singleton,
    Option.some_or]

end FMI3

namespace FMI2
section
variable {F : Type} [Arith F] [HasInf F] {c₀ : Comp F (Feedthrough.Data F)}

theorem fed_feedthrough (hc : c₀.ctx.typ = .modelExchange) {h stop : F} {b : Bool} :
    Fed (Importer.Euler.api2 (Feedthrough.model false) []) (Importer.CoSim.calls (FMI2.step (Feedthrough.model false) 0) feedthrough2.record)
      (FMI2.step (Feedthrough.model false) 0) feedthroughInputs2
      (fun (s : F × Phase) w => Ongoing (Feedthrough.model false) (.feedthrough false) c₀ .eventMode w ∧ Feedthrough.shows2 w.inst.mv.data = row2 s.1 (Arith.lit 0) s.2)
      (fun (s : F × Phase) w => Ongoing (Feedthrough.model false) (.feedthrough false) c₀ .continuousTimeMode w ∧ Feedthrough.shows2 w.inst.mv.data = row2 s.1 (Arith.lit 0) s.2)
      (fun w => ∃ w' v, FMI2.step (Feedthrough.model false) 0 w .terminate = .ret (w', .OK, v)) (fun s => row2 s.1 (Arith.lit 0) s.2)
      (fun t a s => (inputValue t a, s.2)) (fun t s => (s.1, phaseAt t)) := by
  have D := drivesME (m := Feedthrough.model false) (p := .feedthrough false) .feedthrough hc trivial gets_feedthrough (cfg := ⟨0, 0, h, stop, b⟩) (.inl rfl) (.inl rfl)
  have G := feeds (m := Feedthrough.model false) (p := .feedthrough false) (c₀ := c₀) .feedthrough hc trivial legal_feedthrough
  have keep : ∀ {w w' : World F (Feedthrough.Data F)} {op : Op F} {s o} {r}, ¬ changes op.fn → step (Feedthrough.model false) 0 w op = .ret (w', s, o) →
      Feedthrough.shows2 w.inst.mv.data = r → Feedthrough.shows2 w'.inst.mv.data = r := fun hX e hs => (Feedthrough.shows2_eq (keep_feed hX e)).trans hs
  constructor
  case update =>
    intro s w i ⟨hE, hs⟩
    obtain ⟨w', i', e, h1, h2, -, h4⟩ := D.update (i := i) hE
    obtain ⟨h2, h3⟩ := h2 .feedthrough
    refine ⟨w', i', e, h1, h3, h2, h4 h3, ?_⟩
    obtain ⟨⟨w1, st, o⟩, e1, e2⟩ := Outcome.bind_eq_ret.1 e
    cases e2
    exact keep (by simp [Op.fn, changes]) e1 hs
  case enterCT =>
    intro s w ⟨hE, hs⟩
    obtain ⟨w', e, h1⟩ := D.enterCT hE
    refine ⟨w', e, h1, ?_⟩
    obtain ⟨⟨w1, st, o⟩, e1, e2⟩ := Outcome.bind_eq_ret.1 e
    cases e2
    exact keep (by simp [Op.fn, changes]) e1 hs
  case enterEM =>
    intro s w ⟨hE, hs⟩
    obtain ⟨w', e, h1⟩ := D.enterEM hE
    refine ⟨w', e, h1, ?_⟩
    obtain ⟨⟨w1, st, o⟩, e1, e2⟩ := Outcome.bind_eq_ret.1 e
    cases e2
    exact keep (by simp [Op.fn, changes]) e1 hs
  case setTime =>
    intro s w t ⟨hE, hs⟩
    obtain ⟨w', e, h1⟩ := setTimeME (m := Feedthrough.model false) (p := .feedthrough false) .feedthrough hc trivial (t := t) hE
    refine ⟨w', e, h1, ?_⟩
    obtain ⟨⟨w1, st, o⟩, e1, e2⟩ := Outcome.bind_eq_ret.1 e
    cases e2
    exact keep (by simp [Op.fn, changes]) e1 hs
  case completed =>
    intro s w a b ⟨hE, hs⟩
    obtain ⟨w', e, h1⟩ := D.completed (a := a) (b := b) hE
    refine ⟨w', e, h1, ?_⟩
    obtain ⟨⟨w1, st, o⟩, e1, e2⟩ := Outcome.bind_eq_ret.1 e
    have e3 := (Prod.mk.inj (Outcome.ret.inj e2)).1
    cases e3
    exact keep (by simp [Op.fn, changes]) e1 hs
  case record =>
    intro s w ⟨hE, hs⟩
    obtain ⟨w', vs, e, h1, -⟩ := D.record hE
    obtain ⟨e1, e2⟩ := records_feed (.of_calls e)
    exact ⟨w', (e1.trans hs) ▸ e, h1, (Feedthrough.shows2_eq e2).trans hs⟩
  case stop => exact fun h => D.stop h.1
  case continuousC =>
    intro s w t ⟨hE, hs⟩
    obtain ⟨w', vs, e, h1⟩ := G.continuousC t hE
    exact ⟨w', vs, e, h1, continuous_feed (.of_calls e) hs⟩
  case continuousE =>
    intro s w t ⟨hE, hs⟩
    obtain ⟨w', vs, e, h1⟩ := G.continuousE t hE
    exact ⟨w', vs, e, h1, continuous_feed (.of_calls e) hs⟩
  case discreteE =>
    intro s w t ⟨hE, hs⟩
    obtain ⟨w', vs, e, h1⟩ := G.discreteE t hE
    exact ⟨w', vs, e, h1, discrete_feed (.of_calls e) hs⟩

end

/-- **C81**, Model Exchange with FMI 3.0: the program runs to completion. The rows show the signals at the time of the row, before and after the events of the
inputs; the discrete signals change at events only, and an event is handled only if its time is a multiple of the step size, see `C81_me_partial`;
the discrete floating point output stays 0, see `C81_violated_discrete`. -/
theorem C81_me_rows_partial {h stop : Rat} (h0 : 0 < h) {N fuel n : Nat} (hs : stop ≤ N * h) (hk : ∀ k < N, k * h < stop) (hN : N < 2 ^ 64)
    (hf : 0 < fuel) (hn : N < n) (resource : Ptr UInt8) :
    simulate2With (Feedthrough.model false) .built { feedthrough2 with h := .fin h, stopTime := .fin stop } feedthroughInputs2 fuel n resource =
      .ret (.OK, rowsME (fun x p => row2 (.fin x) (.fin 0) p) h (held h) N) := by
  obtain ⟨c, l, hc⟩ := createdME (m := (Feedthrough.model false : Model XRat _)) .feedthrough resource
  have ht : c.ctx.typ = .modelExchange := (createModelInstance_ctx (show createModelInstance (Feedthrough.model false) false true false (some "instance1") (some (Feedthrough.model false : Model XRat _).token)
    resource false true .modelExchange = (some c, l) from hc)).1
  obtain ⟨w₀, vs, ha, ho⟩ := startedWith (p := .feedthrough false) .feedthrough hc trivial legal_feedthrough (stop := .fin stop)
  have hshow : Feedthrough.shows2 w₀.inst.mv.data = row2 (.fin (signal false 0)) (.fin 0) .before := by
    have ha' := ha
    rw [List.append_assoc, List.append_assoc, List.append_assoc] at ha'
    obtain ⟨w₁, u, v, a1, a2⟩ := AllOK.split ha'
    obtain ⟨w₂, u, v, a3, a4⟩ := AllOK.split a2
    obtain ⟨w₃, u, v, a5, a6⟩ := AllOK.split a4
    obtain ⟨w₄, u, v, a7, a8⟩ := AllOK.split a6
    cases a3 with
    | cons e0 a3 =>
     cases a3 with
     | cons e1 a3 =>
      cases a3
      cases a8 with
      | cons e2 a8 =>
        cases a8
        refine (Feedthrough.shows2_eq (keep_feed (by simp [Op.fn, changes]) e2)).trans ?_
        have k1 := (Feedthrough.shows2_eq (keep_feed (by simp [Op.fn, changes]) e1)).trans ((Feedthrough.shows2_eq (keep_feed (by simp [Op.fn, changes]) e0)).trans (start_feed a1))
        have k2 : Feedthrough.shows2 (World.fresh c).inst.mv.data = row2 (.fin 0) (.fin 0) .start := by cases hc; exact shows_start2
        have k3 := discrete_feed a7 (continuous_feed a5 (k1.trans k2))
        rw [k3, show (Arith.lit 0 : XRat) = .fin 0 from rfl, feedthrough_input, phaseAt_fin]
        congr 1
  obtain ⟨s, e, hE⟩ := fed_simulate (fed_feedthrough ht (h := .fin h) (stop := .fin stop) (b := true)) (cfg := ⟨0, 0, .fin h, .fin stop, true⟩) rfl rfl hf hN
    (stop_after h0 hs hk) (s₀ := (.fin (signal false 0), .before)) ⟨ho, hshow⟩ hn
  obtain ⟨w', v, et⟩ := hE.mode
  unfold simulate2With
  rw [hc]
  simp only []
  rw [CALLS_ok (api := Importer.CoSim.api2 (Feedthrough.model false) 0 (.fin h)) ha]
  have e' := e
  rw [show (Importer.Euler.Config.mk 0 0 (XRat.fin h) (XRat.fin stop) true) = ⟨Macros.built.nx, Macros.built.nz, XRat.fin h, XRat.fin stop, true⟩ from rfl] at e'
  rw [show ({ feedthrough2 with h := XRat.fin h, stopTime := XRat.fin stop } : Program XRat (Op XRat)).record = feedthrough2.record from rfl, e']
  simp only [Outcome.ret_bind, Bool.false_eq_true, if_false, hE.status]
  rw [tearDown_ok (api := Importer.CoSim.api2 (Feedthrough.model false) 0 (.fin h)) et, hE.rows]
  rw [rowsAt_feedthrough rfl (fun x p => row2 x (Arith.lit 0) p) h0]
  rfl

/-- **C81**, Model Exchange with FMI 3.0, for the step sizes that divide 0.5: the rows show the signals at the time of the row, before and after the events. -/
theorem C81_me_partial {h stop : Rat} (h0 : 0 < h) {d : Nat} (hd : d * h = 1 / 2) {N fuel n : Nat} (hs : stop ≤ N * h) (hk : ∀ k < N, k * h < stop)
    (hN : N < 2 ^ 64) (hf : 0 < fuel) (hn : N < n) (resource : Ptr UInt8) :
    simulate2With (Feedthrough.model false) .built { feedthrough2 with h := .fin h, stopTime := .fin stop } feedthroughInputs2 fuel n resource =
      .ret (.OK, rowsME (fun x p => row2 (.fin x) (.fin 0) p) h (fun k => if (k : Rat) * h ≤ 1 then .before else .after) N) := by
  rw [C81_me_rows_partial h0 hs hk hN hf hn resource, show held h = _ from funext fun k => held_eq h0 hd k]

/-- The numbers of the example program. -/
example (resource : Ptr UInt8) :
    simulate2With (Feedthrough.model false) .built { feedthrough2 with h := .fin (1 / 10), stopTime := .fin 2 } feedthroughInputs2 1 21 resource =
      .ret (.OK, rowsME (fun x p => row2 (.fin x) (.fin 0) p) (1 / 10) (fun k => if (k : Rat) * (1 / 10) ≤ 1 then .before else .after) 20) :=
  C81_me_partial (by decide +kernel) (d := 5) (by decide +kernel) (N := 20) (by decide +kernel) (by decide +kernel) (by decide) (by decide) (by decide) resource

end FMI2
end Verif
