import Verif.Lemmas.Cut
import Verif.RefFMUs
import Verif.Lemmas.ModelEff
import Verif.Examples
import Verif.Lemmas.ExReach

/-!
# C21: the result does not depend on how an interval is cut into communication steps

In exact arithmetic. The communication points need not be multiples of the solver step.
-/

set_option linter.unusedSectionVars false

namespace Verif

/-- The pieces (communication point, step size) of consecutive steps of the sizes `ds` from `a` on. -/
def pieces (a : Rat) : List Rat → List (Rat × Rat)
  | [] => []
  | d :: ds => (a, d) :: pieces (a + d) ds

/-- `DoStep` accepts its arguments. -/
structure Admits (k : Clock XRat) (a d : Rat) : Prop where
  point : isClose (.fin a) k.expected = true
  size : 0 < d
  stop : (k.stop <. .fin (a + d) && !isClose (.fin (a + d)) k.stop) = false

theorem sum_pos : ∀ {ds : List Rat}, (∀ x ∈ ds, 0 < x) → ds ≠ [] → 0 < ds.sum
  | [], _, h => absurd rfl h
  | [x], hx, _ => by simpa using hx
  | x :: y :: ds, hx, _ => by
    have h1 := hx x (by simp)
    have h2 := sum_pos (ds := y :: ds) (fun z h => hx z (List.mem_cons_of_mem _ h)) (by simp)
    rw [List.sum_cons]
    linarith

theorem stop_mono {stop : XRat} {q q' : Rat} (hq : q' ≤ q)
    (h : (stop <. .fin q && !isClose (.fin q) stop) = false) :
    (stop <. .fin q' && !isClose (.fin q') stop) = false := by
  cases stop with
  | fin s =>
    rw [Bool.and_eq_false_iff, XRat.lt_fin, decide_eq_false_iff_not, Bool.not_eq_false', isClose_fin] at *
    rcases lt_or_ge s q' with h1 | h1
    · rcases h with h | h
      · exact absurd (lt_of_lt_of_le h1 hq) h
      · exact .inr (h.symm.between h1.le hq).symm
    · exact .inl (not_lt.2 h1)
  | pinf => rfl
  | ninf => rw [(C47_infinite q').2.2.2.1]; rfl
  | nan => rfl

namespace FMI2
variable {D : Type} {m : Model XRat D}

/-- The calls of `DoStep` for pieces. -/
def steps (ps : List (Rat × Rat)) : List (Op XRat) := ps.map fun p => .doStep (.fin p.1) (.fin p.2)

theorem doStep_admits (hm : OkOrError m) {fuel : Nat} {w w' : World XRat D} {a d : Rat} {o}
    (e : step m fuel w (.doStep (.fin a) (.fin d)) = .ret (w', .OK, o)) : Admits w.inst.clock a d := by
  simp only [step, World.run, doStep, begin, beginFunction] at e
  obtain ⟨⟨c, s', u⟩, e1, e⟩ := Outcome.bind_eq_ret.1 e
  cases e
  split at e1
  · split at e1
    · cases e1
    · next h1 =>
      split at e1
      · cases e1
      · next h2 =>
        split at e1
        · cases e1
        · next h3 =>
          have h1' : isClose (.fin a) w.inst.nextCommunicationPoint = true := by simpa using h1
          refine ⟨h1', ?_, Bool.eq_false_iff.2 h3⟩
          rw [XRat.lit_eq, XRat.le_fin, decide_eq_true_eq] at h2
          exact not_le.1 h2
  · cases e1

theorem doStep_of_loop (hm : OkOrError m) {w : World XRat D} {a d : Rat} (hs : w.inst.ctx.state = .stepComplete)
    (ha : Admits w.inst.clock a d) {n c'} (hl : Loop m (.fin (a + d)) w.inst n c' .OK) {fuel : Nat} (hf : n < fuel) :
    step m fuel w (.doStep (.fin a) (.fin d)) = .ret ({ w with inst := c' }, .OK, .unit) := by
  have h1 : isClose (.fin a) w.inst.nextCommunicationPoint = true := ha.point
  have h2 : (XRat.fin d <=. (Arith.lit 0 : XRat)) = false := by
    rw [XRat.lit_eq, XRat.le_fin, decide_eq_false_iff_not]; exact not_le.2 ha.size
  have h3 : (w.inst.stopTime <. .fin (a + d) && !isClose (.fin (a + d)) w.inst.stopTime) = false := ha.stop
  have h4 : allowed w.inst.ctx MASK_DoStep = true := (allowed_doStep _).2 hs
  simp only [step, World.run, doStep, begin, beginFunction, XRat.add_fin, h1, h2, h3, h4, hl.eq hm hf]
  rfl

theorem join (hm : OkOrError m) {fuel : Nat} : ∀ (ps : List (Rat × Rat)) {p : Rat × Rat} {w w' : World XRat D} {outs q},
    run m fuel w (steps (p :: ps)) = .ret (w', outs) → (∀ o ∈ outs, o.1 = .OK) →
    ((p :: ps).getLast (by simp)).1 + ((p :: ps).getLast (by simp)).2 = q → (∀ x ∈ p :: ps, x.1 + x.2 ≤ q) →
    w.inst.ctx.state = .stepComplete ∧ w' = { w with inst := w'.inst } ∧
    isClose (.fin p.1) w.inst.nextCommunicationPoint = true ∧ 0 < p.2 ∧
    (w.inst.stopTime <. .fin q && !isClose (.fin q) w.inst.stopTime) = false ∧
    ∃ n, Loop m (.fin q) w.inst n w'.inst .OK := by
  intro ps
  induction ps with
  | nil =>
    rintro ⟨a, d⟩ w w' outs q e hok hq hle
    simp only [steps, List.map, run] at e
    obtain ⟨⟨w1, s1, o1⟩, e1, e⟩ := Outcome.bind_eq_ret.1 e
    cases e
    obtain rfl : s1 = .OK := hok _ List.mem_cons_self
    obtain ⟨h1, h2, n, -, h3⟩ := doStep_loop hm e1 (by simp)
    have ha := doStep_admits hm e1
    subst hq
    exact ⟨h1, h2, ha.point, ha.size, ha.stop, n, h3⟩
  | cons p' ps ih =>
    rintro ⟨a, d⟩ w w' outs q e hok hq hle
    simp only [steps, List.map] at e ih
    unfold run at e
    obtain ⟨⟨w1, s1, o1⟩, e1, e⟩ := Outcome.bind_eq_ret.1 e
    obtain ⟨⟨w2, l⟩, e2, e⟩ := Outcome.bind_eq_ret.1 e
    cases e
    obtain rfl : s1 = .OK := hok _ List.mem_cons_self
    obtain ⟨h1, h2, n, -, h3⟩ := doStep_loop hm e1 (by simp)
    have ha := doStep_admits hm e1
    obtain ⟨b1, b2, -, -, b5, n', b6⟩ := ih e2 (fun o h => hok o (by simp [h]))
      (by rw [← hq]; simp only [List.getLast_cons_cons]) (fun x h => hle x (List.mem_cons_of_mem _ h))
    have hst : w1.inst.stopTime = w.inst.stopTime := congrArg Clock.stop (h3.clock hm)
    rw [hst] at b5
    exact ⟨h1, by rw [b2, h2], ha.point, ha.size, b5, _,
      h3.join (hle _ List.mem_cons_self) b6 rfl⟩

/-- **C21** (FMI 2.0): if a sequence of calls of `DoStep` succeeded, none of them ending behind the end `q` of the last,
then one call of `DoStep` from the beginning of the first to `q` succeeds, and leads to exactly the same state. -/
theorem C21_fmi2 (hm : RefFMU2 m) {fuel : Nat} {p : Rat × Rat} {ps : List (Rat × Rat)} {w w' : World XRat D} {outs} {q : Rat}
    (e : run m fuel w (steps (p :: ps)) = .ret (w', outs)) (hok : ∀ o ∈ outs, o.1 = .OK)
    (hq : ((p :: ps).getLast (by simp)).1 + ((p :: ps).getLast (by simp)).2 = q)
    (hle : ∀ x ∈ p :: ps, x.1 + x.2 ≤ q) :
    ∃ f₀, ∀ f ≥ f₀, step m f w (.doStep (.fin p.1) (.fin (q - p.1))) = .ret (w', .OK, .unit) := by
  obtain ⟨h1, h2, h3, h4, h5, n, h6⟩ := join hm.eff.okOrError ps e hok hq hle
  refine ⟨n + 1, fun f hf => ?_⟩
  have hq' : p.1 + (q - p.1) = q := by ring
  rw [h2]
  refine doStep_of_loop hm.eff.okOrError h1 ⟨h3, ?_, by rw [hq']; exact h5⟩ (by rw [hq']; exact h6) hf
  have := hle p (by simp)
  linarith

/-- **C21** (FMI 2.0), the other direction: if one call of `DoStep` succeeded then the calls over consecutive pieces of
any sizes that sum up to it succeed, and lead to exactly the same state. -/
theorem C21_fmi2_cut (hm : RefFMU2 m) {fuel : Nat} {w w' : World XRat D} {a d : Rat} {o}
    (e : step m fuel w (.doStep (.fin a) (.fin d)) = .ret (w', .OK, o))
    {ds : List Rat} (hne : ds ≠ []) (hpos : ∀ x ∈ ds, 0 < x) (hd : ds.sum = d) :
    ∃ f₀, ∀ f ≥ f₀, run m f w (steps (pieces a ds)) = .ret (w', ds.map fun _ => (.OK, .unit)) := by
  have hk := hm.eff.okOrError
  obtain ⟨h1, h2, n, -, h3⟩ := doStep_loop hk e (by simp)
  have ha := doStep_admits hk e
  clear e
  rw [XRat.add_fin] at h3
  refine ⟨n + 1, fun f hf => ?_⟩
  induction ds generalizing w a d n with
  | nil => exact absurd rfl hne
  | cons d1 ds ih =>
    have hd1 := hpos d1 (by simp)
    rw [List.sum_cons] at hd
    cases ds with
    | nil =>
      simp only [List.sum_nil, add_zero] at hd
      subst hd
      have := doStep_of_loop hk h1 ha h3 hf
      simp only [pieces, steps, List.map, run, this, Outcome.ret_bind]
      rw [h2]
    | cons d2 ds =>
      have hs : 0 < (d2 :: ds).sum :=
        sum_pos (fun x h => hpos x (List.mem_cons_of_mem _ h)) (by simp)
      have hle : a + d1 ≤ a + d := by linarith
      obtain ⟨n1, n2, c1, hn, l1, l2⟩ := h3.split hle rfl
      have e1 := doStep_of_loop hk h1 ⟨ha.point, hd1, stop_mono hle ha.stop⟩ l1 (fuel := f) (by omega)
      have hc := l1.clock hk
      simp only [if_true] at hc
      have := ih (w := { w with inst := c1 }) (a := a + d1) (d := (d2 :: ds).sum) (n := n2) (by simp)
        (fun x h => hpos x (List.mem_cons_of_mem _ h)) rfl
        ((l1.state hk (by simp)).trans h1) (by rw [h2])
        (by rw [add_assoc, hd]; exact l2)
        ⟨by rw [hc]; exact C47_reflexive _, hs, by rw [hc, add_assoc, hd]; exact ha.stop⟩ (by omega)
      rw [pieces, steps, List.map, run, e1, Outcome.ret_bind]
      rw [show List.map (fun p : Rat × Rat => (.doStep (.fin p.1) (.fin p.2) : Op XRat)) (pieces (a + d1) (d2 :: ds)) =
        steps (pieces (a + d1) (d2 :: ds)) from rfl]
      simp only [this]
      rfl

/-- Non-vacuity: Dahlquist from 0 to 1 in steps that are no multiples of the solver step 0.1, and in one step. -/
example : let pre : List (Op XRat) := [.setupExperiment (.fin 0) false (.fin 0), .enterInitializationMode,
    .exitInitializationMode]
  (Ex.run2 Dahlquist.model .coSimulation (pre ++ steps (pieces 0 [1 / 4, 1 / 4, 1 / 3, 1 / 6]))).is (fun x =>
    x.2.all (fun o => decide (o.1 = .OK)) && decide (x.1.inst.ctx.time = .fin 1) &&
    (Ex.run2 Dahlquist.model .coSimulation (pre ++ [.doStep (.fin 0) (.fin 1)])).is fun y =>
      decide (x.1.inst.mv.data.x = y.1.inst.mv.data.x)) = true := by
  decide +kernel

end FMI2

namespace FMI3
variable {D : Type} {m : Model XRat D}

/-- The calls of `DoStep` for pieces, with locations `out` for the results. -/
def steps (out : StepOut XRat) (ps : List (Rat × Rat)) : List (Op XRat) :=
  ps.map fun p => .doStep (.fin p.1) (.fin p.2) out

/-- The results of a step that reached its end: no event to be handled, no request to terminate, no early return. -/
def Out.Complete (o : Out XRat) : Prop :=
  ∃ t, o = .step { eventHandlingNeeded := some false, terminateSimulation := some false,
                   earlyReturn := some false, lastSuccessfulTime := some t }

theorem doStep_admits (hm : OkOrError m) {fuel : Nat} {w w' : World XRat D} {a d : Rat} {o out}
    (e : step m fuel w (.doStep (.fin a) (.fin d) out) = .ret (w', .OK, o)) :
    Admits w.inst.clock a d ∧ (out.eventHandlingNeeded.isNone || out.terminateSimulation.isNone
        || out.earlyReturn.isNone) = false ∧ out.lastSuccessfulTime.isSome := by
  simp only [step, World.run, doStep, begin, beginFunction] at e
  obtain ⟨⟨c, s', u⟩, e1, e⟩ := Outcome.bind_eq_ret.1 e
  cases e
  split at e1
  · split at e1
    · cases e1
    · next h1 =>
      split at e1
      · cases e1
      · next h2 =>
        split at e1
        · cases e1
        · next h3 =>
          split at e1
          · cases e1
          · next h4 =>
            have h1' : isClose (.fin a) w.inst.nextCommunicationPoint = true := by simpa using h1
            refine ⟨⟨h1', ?_, Bool.eq_false_iff.2 h3⟩, Bool.eq_false_iff.2 h4, ?_⟩
            · rw [XRat.lit_eq, XRat.le_fin, decide_eq_true_eq] at h2
              exact not_le.1 h2
            · obtain ⟨n, c1, s1, ehn, r, hn, hl, hf⟩ := Loop.of_eq hm e1
              unfold finish at hf
              split at hf
              · unfold doStepEnd at hf
                cases h : out.lastSuccessfulTime with
                | some _ => rfl
                | none => rw [h] at hf; cases hf
              · next hs => cases hf; exact absurd rfl hs
  · cases e1

theorem doStep_of_loop (hm : OkOrError m) {w : World XRat D} {a d : Rat} {out : StepOut XRat}
    (hs : w.inst.ctx.state ∈ Spec.allowedIn .doStep)
    (ha : Admits w.inst.clock a d) (ho : (out.eventHandlingNeeded.isNone || out.terminateSimulation.isNone
        || out.earlyReturn.isNone) = false) (ho' : out.lastSuccessfulTime.isSome)
    {n c'} (hl : Loop m (.fin (a + d)) w.inst false n c' .OK false true)
    (ht : c'.mv.terminateSimulation = false) {fuel : Nat} (hf : n < fuel) :
    step m fuel w (.doStep (.fin a) (.fin d) out) = .ret ({ w with inst := c'.wn (.fin (a + d)) }, .OK,
      .step ⟨some false, some false, some false, some c'.ctx.time⟩) := by
  have h1 : isClose (.fin a) w.inst.nextCommunicationPoint = true := ha.point
  have h2 : (XRat.fin d <=. (Arith.lit 0 : XRat)) = false := by
    rw [XRat.lit_eq, XRat.le_fin, decide_eq_false_iff_not]; exact not_le.2 ha.size
  have h3 : (w.inst.stopTime <. .fin (a + d) && !isClose (.fin (a + d)) w.inst.stopTime) = false := ha.stop
  have h4 : allowed w.inst.ctx MASK_DoStep = true := (allowed_fn w.inst.ctx .doStep).2 hs
  obtain ⟨l, hl'⟩ := Option.isSome_iff_exists.1 ho'
  have h5 := hl.eq hm (out := out) hf
  simp only [finish, if_true, doStepEnd, hl', ht, Bool.not_true, Bool.and_false] at h5
  simp only [step, World.run, doStep, begin, beginFunction, XRat.add_fin, h1, h2, h3, h4, h5, ho]
  rfl

theorem complete_loop (hm : OkOrError m) {fuel : Nat} {w w' : World XRat D} {a d : Rat} {o out}
    (e : step m fuel w (.doStep (.fin a) (.fin d) out) = .ret (w', .OK, o)) (ho : o.Complete) :
    w.inst.ctx.state ∈ Spec.allowedIn .doStep ∧ ∃ n ≤ fuel, ∃ c', Loop m (.fin (a + d)) w.inst false n c' .OK false true ∧
      c'.mv.terminateSimulation = false ∧ w' = { w with inst := c'.wn (.fin (a + d)) } ∧
      o = .step ⟨some false, some false, some false, some c'.ctx.time⟩ := by
  obtain ⟨h1, n, c', ehn, r, hn, hl, rfl, rfl⟩ := doStep_loop hm e
  obtain ⟨t, ho⟩ := ho
  simp only [Out.step.injEq, StepOut.mk.injEq, Option.some.injEq] at ho
  obtain ⟨rfl, h2, h3, -⟩ := ho
  have hr : r = true := by
    cases r with
    | true => rfl
    | false =>
      rcases hl.left hm rfl rfl with h | h
      · rw [h] at h3; cases h3
      · rw [h] at h2; cases h2
  subst hr
  exact ⟨h1, n, hn, c', hl, h2, rfl, by simp [h2]⟩

theorem join (hm : OkOrError m) {fuel : Nat} {out : StepOut XRat} : ∀ (ps : List (Rat × Rat)) {p : Rat × Rat}
    {w w' : World XRat D} {outs q},
    run m fuel w (steps out (p :: ps)) = .ret (w', outs) → (∀ o ∈ outs, o.1 = .OK ∧ o.2.Complete) →
    ((p :: ps).getLast (by simp)).1 + ((p :: ps).getLast (by simp)).2 = q → (∀ x ∈ p :: ps, x.1 + x.2 ≤ q) →
    w.inst.ctx.state ∈ Spec.allowedIn .doStep ∧ (out.eventHandlingNeeded.isNone || out.terminateSimulation.isNone
        || out.earlyReturn.isNone) = false ∧ out.lastSuccessfulTime.isSome ∧
    isClose (.fin p.1) w.inst.nextCommunicationPoint = true ∧ 0 < p.2 ∧
    (w.inst.stopTime <. .fin q && !isClose (.fin q) w.inst.stopTime) = false ∧
    ∃ n c', Loop m (.fin q) w.inst false n c' .OK false true ∧ c'.mv.terminateSimulation = false ∧
      w' = { w with inst := c'.wn (.fin q) } ∧
      outs.getLast? = some (.OK, .step ⟨some false, some false, some false, some c'.ctx.time⟩) := by
  intro ps
  induction ps with
  | nil =>
    rintro ⟨a, d⟩ w w' outs q e hok hq hle
    simp only [steps, List.map, run] at e
    obtain ⟨⟨w1, s1, o1⟩, e1, e⟩ := Outcome.bind_eq_ret.1 e
    cases e
    obtain ⟨hs, ho⟩ := hok _ List.mem_cons_self
    cases hs
    obtain ⟨h1, n, -, c', hl, ht, h2, h3⟩ := complete_loop hm e1 ho
    obtain ⟨ha, ho1, ho2⟩ := doStep_admits hm e1
    subst hq
    exact ⟨h1, ho1, ho2, ha.point, ha.size, ha.stop, n, c', hl, ht, h2, by simp [h3]⟩
  | cons p' ps ih =>
    rintro ⟨a, d⟩ w w' outs q e hok hq hle
    simp only [steps, List.map] at e ih
    unfold run at e
    obtain ⟨⟨w1, s1, o1⟩, e1, e⟩ := Outcome.bind_eq_ret.1 e
    obtain ⟨⟨w2, l⟩, e2, e⟩ := Outcome.bind_eq_ret.1 e
    cases e
    obtain ⟨hs, ho⟩ := hok _ List.mem_cons_self
    cases hs
    obtain ⟨h1, n, -, c', hl, ht, h2, h3⟩ := complete_loop hm e1 ho
    obtain ⟨ha, ho1, ho2⟩ := doStep_admits hm e1
    obtain ⟨-, -, -, -, -, b5, n', c'', b6, b7, b8, b9⟩ := ih e2 (fun o h => hok o (by simp [h]))
      (by rw [← hq]; simp only [List.getLast_cons_cons]) (fun x h => hle x (List.mem_cons_of_mem _ h))
    subst h2
    have hst : c'.stopTime = w.inst.stopTime := congrArg Clock.stop (hl.clock hm)
    have b6' := b6.wn c'.nextCommunicationPoint rfl
    simp only [Comp.wn] at b5 b8
    rw [hst] at b5
    refine ⟨h1, ho1, ho2, ha.point, ha.size, b5, _, _, hl.join (hle _ List.mem_cons_self) b6' rfl rfl, b7, b8, ?_⟩
    rw [List.getLast?_cons, b9]
    rfl

/-- **C21** (FMI 3.0): if a sequence of calls of `DoStep` succeeded, none of them ending behind the end `q` of the last,
and each without early return, request to terminate, or event to be handled, then one call of `DoStep` from the beginning of the first to `q` succeeds, gives the same results, and leads to exactly the same state. -/
theorem C21_fmi3 (hm : RefFMU3 m) {fuel : Nat} {out : StepOut XRat} {p : Rat × Rat} {ps : List (Rat × Rat)} {w w' : World XRat D}
    {outs} {q : Rat}
    (e : run m fuel w (steps out (p :: ps)) = .ret (w', outs)) (hok : ∀ o ∈ outs, o.1 = .OK ∧ o.2.Complete)
    (hq : ((p :: ps).getLast (by simp)).1 + ((p :: ps).getLast (by simp)).2 = q)
    (hle : ∀ x ∈ p :: ps, x.1 + x.2 ≤ q) :
    ∃ o, outs.getLast? = some (.OK, o) ∧
      ∃ f₀, ∀ f ≥ f₀, step m f w (.doStep (.fin p.1) (.fin (q - p.1)) out) = .ret (w', .OK, o) := by
  obtain ⟨h1, h2, h3, h4, h5, h6, n, c', h7, h8, h9, h10⟩ := join hm.eff.okOrError ps e hok hq hle
  refine ⟨_, h10, n + 1, fun f hf => ?_⟩
  have hq' : p.1 + (q - p.1) = q := by ring
  have := doStep_of_loop hm.eff.okOrError (a := p.1) (d := q - p.1) h1 ⟨h4, by
    have := hle p (by simp)
    linarith, by rw [hq']; exact h6⟩ h2 h3 (by rw [hq']; exact h7) h8 hf
  rw [this, h9, hq']

/-- **C21** (FMI 3.0), the other direction, for instances without event mode for which no termination was
requested before: if one call of `DoStep` succeeded without
early return and request to terminate, then the calls over consecutive pieces of any sizes that sum up to it succeed,
each without early return and request to terminate, and lead to exactly the same state. -/
theorem C21_fmi3_cut (hm : RefFMU3 m) {fuel : Nat} {w w' : World XRat D} {a d : Rat} {o out}
    (hem : w.inst.eventModeUsed = false) (ht₀ : w.inst.mv.terminateSimulation = false)
    (e : step m fuel w (.doStep (.fin a) (.fin d) out) = .ret (w', .OK, o)) (ho : o.Complete)
    {ds : List Rat} (hne : ds ≠ []) (hpos : ∀ x ∈ ds, 0 < x) (hd : ds.sum = d) :
    ∃ f₀, ∀ f ≥ f₀, ∃ outs, run m f w (steps out (pieces a ds)) = .ret (w', outs) ∧
      outs.length = ds.length ∧ (∀ x ∈ outs, x.1 = .OK ∧ x.2.Complete) := by
  have hk := hm.eff.okOrError
  obtain ⟨h1, n, -, c', hl, ht, h2, -⟩ := complete_loop hk e ho
  obtain ⟨ha, ho1, ho2⟩ := doStep_admits hk e
  clear e
  refine ⟨n + 1, fun f hf => ?_⟩
  induction ds generalizing w a d n c' with
  | nil => exact absurd rfl hne
  | cons d1 ds ih =>
    have hd1 := hpos d1 (by simp)
    rw [List.sum_cons] at hd
    cases ds with
    | nil =>
      simp only [List.sum_nil, add_zero] at hd
      subst hd
      have := doStep_of_loop hk h1 ha ho1 ho2 hl ht hf
      simp only [pieces, steps, List.map, run, this, Outcome.ret_bind]
      exact ⟨_, by rw [h2], by simp, by simp [Out.Complete]⟩
    | cons d2 ds =>
      have hs : 0 < (d2 :: ds).sum :=
        sum_pos (fun x h => hpos x (List.mem_cons_of_mem _ h)) (by simp)
      have hle : a + d1 ≤ a + d := by linarith
      obtain ⟨n1, n2, c1, hn, l1, l2, l3⟩ := hl.split hk hle hem rfl rfl rfl
      have ht1 := l1.notTerminated hk ht₀ rfl rfl
      have e1 := doStep_of_loop hk h1 ⟨ha.point, hd1, stop_mono hle ha.stop⟩ ho1 ho2 l1 ht1 (fuel := f) (by omega)
      have hc := l1.clock hk
      obtain ⟨outs, r1, r2, r3⟩ := ih (w := { w with inst := c1.wn (.fin (a + d1)) }) (a := a + d1)
        (d := (d2 :: ds).sum) l3 ht1 (by simp)
        (fun x h => hpos x (List.mem_cons_of_mem _ h)) rfl ((l1.state hk rfl).symm ▸ h1) n2 (c'.wn (.fin (a + d1)))
        (by rw [add_assoc, hd]; exact l2.wn _ rfl) ht (by rw [h2, add_assoc, hd]; rfl)
        ⟨C47_reflexive _, hs, by
          have hst : (c1.wn (.fin (a + d1))).clock.stop = w.inst.clock.stop :=
            show c1.clock.stop = _ by rw [hc]
          simp only [hst]
          rw [add_assoc, hd]
          exact ha.stop⟩ (by omega)
      rw [pieces, steps, List.map, run, e1, Outcome.ret_bind]
      rw [show List.map (fun p : Rat × Rat => (.doStep (.fin p.1) (.fin p.2) out : Op XRat))
        (pieces (a + d1) (d2 :: ds)) = steps out (pieces (a + d1) (d2 :: ds)) from rfl]
      simp only [r1, Outcome.ret_bind]
      refine ⟨_, rfl, by simp [r2], ?_⟩
      intro x hx
      rcases List.mem_cons.1 hx with rfl | hx
      · exact ⟨rfl, _, rfl⟩
      · exact r3 x hx

/-- Non-vacuity: BouncingBall with internal event handling from 0 to 1, over a bounce, in three steps and in one. -/
example : let pre : List (Op XRat) := [.enterInitializationMode (.fin 0) false (.fin 0), .exitInitializationMode]
  (Ex.runCS3 BouncingBall.model false false (pre ++ steps Ex.stepOut (pieces 0 [1 / 4, 1 / 4, 1 / 10]))).is (fun x =>
    (x.2.drop 2).all (fun o => decide (o.1 = .OK) && (match o.2 with
      | .step ⟨some false, some false, some false, some _⟩ => true
      | _ => false)) &&
    (Ex.runCS3 BouncingBall.model false false (pre ++ [.doStep (.fin 0) (.fin (6 / 10)) Ex.stepOut])).is fun y =>
      decide (x.1.inst.mv.data = y.1.inst.mv.data)) = true := by
  decide +kernel

/-- The condition on events is needed: with event mode and without early return, Stair stepped from 0 over 2 handles the
event at time 1 itself and counts to 2. Stepped from 0 over 1 it asks for event handling; if the importer ignores this
and continues with `DoStep`, the event is lost and the counter stays 1. -/
theorem C21_events_needed : ∃ (w w₁ w₂ w₂' : World XRat Stair.Data) (t : XRat),
    Reachable Stair.model .coSimulation w ∧
    step Stair.model 100 w (.doStep (.fin 0) (.fin 2) Ex.stepOut) =
      .ret (w₁, .OK, .step ⟨some true, some false, some false, some (.fin 2)⟩) ∧
    step Stair.model 100 w (.doStep (.fin 0) (.fin 1) Ex.stepOut) =
      .ret (w₂, .OK, .step ⟨some true, some false, some false, some (.fin 1)⟩) ∧
    step Stair.model 100 w₂ (.doStep (.fin 1) (.fin 1) Ex.stepOut) =
      .ret (w₂', .OK, .step ⟨some true, some false, some false, some t⟩) ∧
    w₁.inst.mv.data.counter = 2 ∧ w₂'.inst.mv.data.counter = 1 := by
  obtain ⟨⟨w, outs⟩, hp, hx⟩ := Outcome.exists_of_is (r := Ex.runCS3 Stair.model true false
      [.enterInitializationMode (.fin 0) false (.fin 0), .exitInitializationMode, .enterStepMode])
    (p := fun x => (step Stair.model 100 x.1 (.doStep (.fin 0) (.fin 2) Ex.stepOut)).is fun y =>
      decide (y.2 = (.OK, .step ⟨some true, some false, some false, some (.fin 2)⟩)) &&
      decide (y.1.inst.mv.data.counter = 2) &&
      (step Stair.model 100 x.1 (.doStep (.fin 0) (.fin 1) Ex.stepOut)).is fun z =>
        decide (z.2 = (.OK, .step ⟨some true, some false, some false, some (.fin 1)⟩)) &&
        (step Stair.model 100 z.1 (.doStep (.fin 1) (.fin 1) Ex.stepOut)).is fun u =>
          decide (u.2 = (.OK, .step ⟨some true, some false, some false, some (.fin 2)⟩)) &&
          decide (u.1.inst.mv.data.counter = 1)) (by decide +kernel)
  obtain ⟨⟨w1, r1⟩, e1, hx⟩ := Outcome.exists_of_is hx
  simp only [Bool.and_eq_true, decide_eq_true_eq] at hx
  obtain ⟨⟨rfl, h1⟩, hx⟩ := hx
  obtain ⟨⟨w2, r2⟩, e2, hx⟩ := Outcome.exists_of_is hx
  simp only [Bool.and_eq_true, decide_eq_true_eq] at hx
  obtain ⟨rfl, hx⟩ := hx
  obtain ⟨⟨w3, r3⟩, e3, hx⟩ := Outcome.exists_of_is hx
  simp only [Bool.and_eq_true, decide_eq_true_eq] at hx
  obtain ⟨rfl, h3⟩ := hx
  exact ⟨w, w1, w2, w3, _, Ex.reach_runCS3 hp, e1, e2, e3, h1, h3⟩

end FMI3
end Verif
