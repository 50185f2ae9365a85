import Verif.Lemmas.Reached
import Verif.Lemmas.DoStep
import Verif.Props.C23

/-! # Where a communication step ends, in exact arithmetic -/

set_option linter.unusedSectionVars false

namespace Verif
variable {D : Type} {m : Model XRat D}

/-- The time of an instance is not ahead of the expected communication point by more than the tolerance. -/
def Ahead (t e : Rat) : Prop := t ≤ e ∨ Close t e

theorem Ahead.mono {t e q : Rat} (h : Ahead t e) (hq : e ≤ q) : Ahead t q := by
  rcases h with h | h
  · exact .inl (h.trans hq)
  · rcases le_total t q with h1 | h1
    · exact .inl h1
    · exact .inr (h.symm.between' hq h1).symm

theorem Count.ahead {h q s t : Rat} {c c' : Comp XRat D} {n : Nat} (a : Count h q s t c c' n) (h0 : Ahead t q) :
    Ahead (t + n * h) q := by
  cases n with
  | zero => simpa using h0
  | succ n => exact a.last

theorem reached_times {next : XRat} {c c' : Comp XRat D} (h : c'.ctx.time = c.ctx.time) :
    reached m next c' = reached m next c := by
  unfold reached; rw [h]

namespace FMI2

theorem Loop.reached {next : XRat} {c c' : Comp XRat D} {n s} (h : Loop m next c n c' s) :
    s = .OK → Verif.reached m next c' = true := by
  induction h with
  | done hr => exact fun _ => hr
  | step _ _ _ _ ih => exact ih
  | discard => intro h; cases h
  | error => intro h; cases h

/-- A step that was not refused had a positive or infinite size, or NaN. -/
theorem accepted {fuel : Nat} {w w' : World XRat D} {ccp h : XRat} {s o}
    (e : step m fuel w (.doStep ccp h) = .ret (w', s, o)) (hs : s ≠ .Error) :
    ¬ w.inst.clock.Rejects ccp h := fun hr => by
  obtain ⟨w1, e1, -⟩ := doStep_rejects (fuel := fuel) (m := m) hr
  rw [e1] at e; cases e; exact hs rfl

/-- A successful step. -/
theorem doStep_ok (hm : OkOrError m) {h s t : Rat} (hh : m.h = .fin h) {fuel : Nat} {w w' : World XRat D}
    {a : Rat} {hc : XRat} {o} (e : step m fuel w (.doStep (.fin a) hc) = .ret (w', .OK, o))
    (hT : Ticks h s t w.inst) (hn : w.inst.nSteps + fuel < 2 ^ 64) :
    ∃ n ≤ fuel, ∃ d, hc = .fin d ∧ 0 < d ∧ w'.inst.nextCommunicationPoint = .fin (a + d) ∧
      Count h (a + d) s t w.inst w'.inst n ∧ Reach h (a + d) (t + n * h) := by
  obtain ⟨hst, -, n, hnf, hl⟩ := doStep_loop hm e (by simp)
  have hna := accepted e (by simp)
  obtain ⟨k, -, hk, adv⟩ := hl.advanced hm
  have hkn := hk (by simp)
  subst hkn
  have hre := hl.reached rfl
  have htf : ∃ t', w'.inst.ctx.time = .fin t' := by
    have := adv.time
    simp only [Comp.times] at this
    rw [this]
    split
    · exact ⟨_, hT.time⟩
    · rw [hT.start, hh]; exact ⟨_, rfl⟩
  obtain ⟨t', ht'⟩ := htf
  have hd : ∃ d, hc = .fin d := by
    have := reached_next hh ht' hre
    cases hc with
    | fin d => exact ⟨d, rfl⟩
    | pinf => rcases this with h | ⟨q, h⟩ <;> cases h
    | ninf => exact absurd .minusInf hna
    | nan => rcases this with h | ⟨q, h⟩ <;> cases h
  obtain ⟨d, rfl⟩ := hd
  have hpos : 0 < d := lt_of_not_ge fun h => hna (.notPositive h)
  obtain ⟨c1, c2⟩ := hl.count hm hh rfl (by simp) hT (by omega)
  have hcl := hl.clock hm
  simp only [if_true, Comp.clock, Clock.mk.injEq] at hcl
  exact ⟨k, hnf, d, rfl, hpos, hcl.1, c1, c2 rfl⟩

/-- Other calls of a session keep all times. -/
theorem step_still (hm : OkOrError m) {fuel : Nat} {w : World XRat D} {op : Op XRat}
    (hop : ¬ EndsSession op) (hd : op.fn ≠ .doStep) (hs : WInv CSModes w) :
    (step m fuel w op).All fun x => x.1.inst.times = w.inst.times := by
  rintro ⟨w', s, o⟩ e
  have h := step_times hm hd _ e
  simp only at h ⊢
  rw [h]
  unfold timesAfter
  split
  · next hok =>
    subst hok
    cases op <;> first | rfl | (exfalso; apply hop; simp [EndsSession, Op.fn]; done) | skip
    case setTime t =>
      exfalso
      obtain ⟨w1, e1, -⟩ := refused m fuel w (.setTime t) (by
        have := hs.inst.2
        intro h
        simp only [List.mem_cons, List.not_mem_nil, or_false, Op.fn, Spec.allowedIn] at this h
        rcases h with h | h <;> rw [h] at this <;> simp at this)
      rw [e1] at e
      cases e
  · rfl

/-- Along chained steps the time stays close to the expected communication point. -/
theorem run_chained (hm : OkOrError m) {h s : Rat} (hh : m.h = .fin h) {fuel : Nat} :
    ∀ (ops : List (Op XRat)) {w : World XRat D} {t e : Rat} {w' outs}, WInv CSModes w →
    (∀ op ∈ ops, ¬ EndsSession op) → run m fuel w ops = .ret (w', outs) →
    Ticks h s t w.inst → w.inst.nextCommunicationPoint = .fin e → Ahead t e →
    w.inst.nSteps + fuel * ops.length < 2 ^ 64 → w.inst.clock.Chained2 ops outs →
    WInv CSModes w' ∧ w'.inst.nSteps ≤ w.inst.nSteps + fuel * ops.length ∧
    ∃ t' e', Ticks h s t' w'.inst ∧ w'.inst.nextCommunicationPoint = .fin e' ∧ Ahead t' e' := by
  intro ops
  induction ops with
  | nil =>
    intro w t e w' outs hw _ er hT he hA _ _
    cases er
    exact ⟨hw, Nat.le_refl _, t, e, hT, he, hA⟩
  | cons op ops ih =>
    intro w t e w' outs hw hX er hT he hA hn hC
    unfold run at er
    obtain ⟨⟨w1, s1, o1⟩, e1, er⟩ := Outcome.bind_eq_ret.1 er
    obtain ⟨⟨w2, l⟩, e2, er⟩ := Outcome.bind_eq_ret.1 er
    cases er
    obtain ⟨hC1, hC2⟩ := hC
    rw [List.length_cons, Nat.mul_succ] at hn
    have hw1 : WInv CSModes w1 := step_inv hm (csModes m) hw op _ e1
    have hcl : w1.inst.clock = w.inst.clock.after2 op s1 := step_clock hm
      (fun i hi => hX op (by simp) (by subst hi; simp [EndsSession, Op.fn])) _ e1
    rw [← hcl] at hC2
    have key : w1.inst.nSteps ≤ w.inst.nSteps + fuel ∧ ∃ t' e', Ticks h s t' w1.inst ∧
        w1.inst.nextCommunicationPoint = .fin e' ∧ Ahead t' e' := by
      by_cases hd : op.fn = .doStep
      · cases op <;> simp only [Op.fn, reduceCtorEq] at hd
        case doStep ccp hc =>
        obtain ⟨rfl, hccp⟩ := hC1 _ _ rfl
        have hccp : ccp = .fin e := hccp.trans he
        subst hccp
        obtain ⟨n, hnf, d, rfl, hpos, h1, h2, h3⟩ := doStep_ok hm hh e1 hT (by omega)
        exact ⟨by rw [h2.nSteps]; omega, _, _, h2.ticks, h1, h2.ahead (hA.mono (by linarith))⟩
      · have := step_still hm (hX op (by simp)) hd hw _ e1
        simp only [Comp.times, Times.mk.injEq] at this
        obtain ⟨a1, a2, a3, a4, a5⟩ := this
        refine ⟨by omega, t, e, ⟨by simp_all [hT.start], by simp_all [hT.time], ?_⟩, by simp_all, hA⟩
        rw [hT.grid]; simp_all
    obtain ⟨hn1, t1, q1, hT1, he1, hA1⟩ := key
    obtain ⟨b1, b2, b3⟩ := ih hw1 (fun op h => hX op (by simp [h])) e2 hT1 he1 hA1 (by omega) hC2
    refine ⟨b1, ?_, b3⟩
    rw [List.length_cons, Nat.mul_succ]; omega

end FMI2

namespace FMI3

theorem Loop.reached {next : XRat} {c c' : Comp XRat D} {n s ehn e r} (h : Loop m next c ehn n c' s e r) :
    r = true → Verif.reached m next c' = true := by
  induction h with
  | done hr => exact fun h => h
  | step _ _ _ ih => exact ih
  | leave => intro h; cases h
  | error => intro h; cases h

theorem accepted {fuel : Nat} {w w' : World XRat D} {ccp h : XRat} {s o out}
    (e : step m fuel w (.doStep ccp h out) = .ret (w', s, o)) (hs : s ≠ .Error) :
    ¬ w.inst.clock.Rejects ccp h := fun hr => by
  obtain ⟨w1, e1, -⟩ := doStep_rejects (fuel := fuel) (m := m) (out := out) hr
  rw [e1] at e; cases e; exact hs rfl

/-- A successful step: it reached its end point, or returned early. -/
theorem doStep_ok (hm : OkOrError m) {h s t : Rat} (hh : m.h = .fin h) {fuel : Nat} {w w' : World XRat D}
    {a : Rat} {hc : XRat} {o out} (e : step m fuel w (.doStep (.fin a) hc out) = .ret (w', .OK, o))
    (hT : Ticks h s t w.inst) (hn : w.inst.nSteps + fuel < 2 ^ 64) :
    ∃ n ≤ fuel, Ticks h s (t + n * h) w'.inst ∧ w'.inst.nSteps = w.inst.nSteps + n ∧
    ((∃ d, hc = .fin d ∧ 0 < d ∧ w'.inst.nextCommunicationPoint = .fin (a + d) ∧
      Count h (a + d) s t w.inst w'.inst n ∧ Reach h (a + d) (t + n * h)) ∨
     w'.inst.nextCommunicationPoint = .fin (t + n * h) ∧
       (o.terminates ∨ ∃ r, o = .step r ∧ r.earlyReturn = some true)) := by
  obtain ⟨hst, n, c', ehn, r, hnf, hl, rfl, rfl⟩ := doStep_loop hm e
  have hna := accepted e (by simp)
  obtain ⟨k, -, hk, adv⟩ := hl.advanced hm
  have hkn := hk (by simp)
  subst hkn
  have hT' : Ticks h s (t + k * h) c' ∧ c'.nSteps = w.inst.nSteps + k := by
    have h1 := adv.startTime
    have h2 := adv.nSteps
    have h3 := adv.time
    simp only [Comp.times] at h1 h2 h3
    by_cases h0 : k = 0
    · subst h0
      simp only [if_true] at h2 h3
      refine ⟨⟨h1.trans hT.start, by simp [h3, hT.time], by rw [h2]; simpa using hT.grid⟩, h2⟩
    · rw [if_neg h0] at h2 h3
      rw [Nat.mod_eq_of_lt (by omega)] at h2
      have hg : t + k * h = s + ((w.inst.nSteps + k : Nat) : Rat) * h := by rw [hT.grid]; push_cast; ring
      refine ⟨⟨h1.trans hT.start, ?_, by rw [h2, hg]⟩, h2⟩
      rw [h3, h2, hT.start, hh, hg]
      rfl
  refine ⟨k, hnf, ⟨hT'.1.start, hT'.1.time, hT'.1.grid⟩, hT'.2, ?_⟩
  cases r with
  | false =>
    right
    refine ⟨by simp [hT'.1.time], ?_⟩
    rcases hl.left hm rfl rfl with h | h
    · right; exact ⟨_, rfl, by simp [h]⟩
    · left; simp [Out.terminates, h]
  | true =>
    left
    have hre := hl.reached rfl
    have hd : ∃ d, hc = .fin d := by
      have := reached_next hh hT'.1.time hre
      cases hc with
      | fin d => exact ⟨d, rfl⟩
      | pinf => rcases this with h | ⟨q, h⟩ <;> cases h
      | ninf => exact absurd .minusInf hna
      | nan => rcases this with h | ⟨q, h⟩ <;> cases h
    obtain ⟨d, rfl⟩ := hd
    have hpos : 0 < d := lt_of_not_ge fun h => hna (.notPositive h)
    obtain ⟨c1, c2⟩ := hl.count hm hh rfl (by simp) hT (by omega)
    exact ⟨d, rfl, hpos, rfl, ⟨⟨c1.ticks.start, c1.ticks.time, c1.ticks.grid⟩, c1.nSteps, c1.before⟩, c2 rfl⟩

theorem step_still (hm : OkOrError m) {fuel : Nat} {w : World XRat D} {op : Op XRat}
    (hop : ¬ EndsSession op) (hd : op.fn ≠ .doStep) (hs : op.fn ≠ .setTime) :
    (step m fuel w op).All fun x => x.1.inst.times = w.inst.times := by
  rintro ⟨w', s, o⟩ e
  have h := step_times hm hd _ e
  simp only at h ⊢
  rw [h]
  unfold timesAfter
  split
  · cases op <;> first | rfl | (exfalso; apply hop; simp [EndsSession, Op.fn]; done) | skip
    case setTime t => exact absurd rfl hs
  · rfl

/-- Along chained steps the time stays close to the expected communication point. -/
theorem run_chained (hm : OkOrError m) {h s : Rat} (hh : m.h = .fin h) {fuel : Nat} :
    ∀ (ops : List (Op XRat)) {w : World XRat D} {t e : Rat} {w' outs},
    (∀ op ∈ ops, ¬ EndsSession op ∧ op.fn ≠ .setTime) → run m fuel w ops = .ret (w', outs) →
    Ticks h s t w.inst → w.inst.nextCommunicationPoint = .fin e → Ahead t e →
    w.inst.nSteps + fuel * ops.length < 2 ^ 64 → w.inst.clock.Chained3 ops outs →
    w'.inst.nSteps ≤ w.inst.nSteps + fuel * ops.length ∧
    w'.inst.clock = w.inst.clock.run3 ops outs ∧
    ∃ t' e', Ticks h s t' w'.inst ∧ w'.inst.nextCommunicationPoint = .fin e' ∧ Ahead t' e' := by
  intro ops
  induction ops with
  | nil =>
    intro w t e w' outs _ er hT he hA _ _
    cases er
    exact ⟨Nat.le_refl _, rfl, t, e, hT, he, hA⟩
  | cons op ops ih =>
    intro w t e w' outs hX er hT he hA hn hC
    unfold run at er
    obtain ⟨⟨w1, s1, o1⟩, e1, er⟩ := Outcome.bind_eq_ret.1 er
    obtain ⟨⟨w2, l⟩, e2, er⟩ := Outcome.bind_eq_ret.1 er
    cases er
    obtain ⟨hC1, hC2⟩ := hC
    rw [List.length_cons, Nat.mul_succ] at hn
    have hnt : ¬ o1.terminates := by
      by_cases hd : op.fn = .doStep
      · cases op <;> simp only [Op.fn, reduceCtorEq] at hd
        exact (hC1 _ _ _ rfl).2.2
      · cases op <;> first | exact absurd rfl hd | skip
        all_goals
          simp only [step] at e1
          first
            | (cases e1; exact id)
            | (obtain ⟨⟨c, s', u⟩, -, e⟩ := Outcome.bind_eq_ret.1 e1; cases e; exact id)
    have hcl : w1.inst.clock = w.inst.clock.after3 op s1 o1 := step_clock hm
      (fun i hi => (hX op (by simp)).1 (by subst hi; simp [EndsSession, Op.fn])) _ e1 hnt
    rw [← hcl] at hC2
    have key : w1.inst.nSteps ≤ w.inst.nSteps + fuel ∧ ∃ t' e', Ticks h s t' w1.inst ∧
        w1.inst.nextCommunicationPoint = .fin e' ∧ Ahead t' e' := by
      by_cases hd : op.fn = .doStep
      · cases op <;> simp only [Op.fn, reduceCtorEq] at hd
        case doStep ccp hc out =>
        obtain ⟨rfl, hccp, -⟩ := hC1 _ _ _ rfl
        have hccp : ccp = .fin e := hccp.trans he
        subst hccp
        obtain ⟨n, hnf, h1, h2, ⟨d, rfl, hpos, h3, h4, h5⟩ | ⟨h3, -⟩⟩ := doStep_ok hm hh e1 hT (by omega)
        · exact ⟨by omega, _, _, h1, h3, h4.ahead (hA.mono (by linarith))⟩
        · exact ⟨by omega, _, _, h1, h3, .inl le_rfl⟩
      · have := step_still hm (hX op (by simp)).1 hd (hX op (by simp)).2 _ e1
        simp only [Comp.times, Times.mk.injEq] at this
        obtain ⟨a1, a2, a3, a4, a5⟩ := this
        refine ⟨by omega, t, e, ⟨by simp_all [hT.start], by simp_all [hT.time], ?_⟩, by simp_all, hA⟩
        rw [hT.grid]; simp_all
    obtain ⟨hn1, t1, q1, hT1, he1, hA1⟩ := key
    obtain ⟨b1, b2, b3⟩ := ih (fun op h => hX op (by simp [h])) e2 hT1 he1 hA1 (by omega) hC2
    refine ⟨?_, ?_, b3⟩
    · rw [List.length_cons, Nat.mul_succ]; omega
    · rw [b2, hcl, Clock.run3]

end FMI3
end Verif
