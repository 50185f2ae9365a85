import Verif.Lemmas.Chain

/-! # Where the time is after any communication steps, in exact arithmetic -/

set_option linter.unusedSectionVars false

namespace Verif
variable {D : Type} {m : Model XRat D}

namespace FMI2

theorem Loop.count' (hm : OkOrError m) {h q s : Rat} (hh : m.h = .fin h) {next : XRat} (hq : next = .fin q)
    {c c' : Comp XRat D} {n st} (hl : FMI2.Loop m next c n c' st) : ∀ {t : Rat}, Ticks h s t c →
    c.nSteps + n < 2 ^ 64 → ∃ k ≤ n, Count h q s t c c' k := by
  subst hq
  induction hl with
  | done hr =>
    intro t hc _
    exact ⟨0, le_rfl, .zero hc rfl rfl rfl⟩
  | step hr e ht _ ih =>
    intro t hc hn
    obtain ⟨h1, h2⟩ := hc.advance hh (by omega) (iter_frame hm e)
    obtain ⟨k, hk, a⟩ := ih h1 (by omega)
    exact ⟨k + 1, by omega, a.succ h2 ((reached_fin_false hh hc.time).1 hr)⟩
  | discard hr e ht =>
    intro t hc hn
    obtain ⟨h1, h2⟩ := hc.advance hh (by omega) (iter_frame hm e)
    exact ⟨1, le_rfl, (Count.zero h1 rfl rfl rfl).succ h2 ((reached_fin_false hh hc.time).1 hr)⟩
  | error hr e =>
    intro t hc hn
    rcases iter_eq_ret hm e with ⟨h, -⟩ | ⟨-, c1, rfl, h | h⟩
    · cases h
    · exact ⟨0, by omega, .zero hc h.startTime h.nSteps (show c1.ctx.time = _ by rw [h.ctx]; rfl)⟩
    · obtain ⟨h1, h2⟩ := hc.advance hh (by omega) h
      exact ⟨1, le_rfl, Count.succ (c1 := c1) h2 ((reached_fin_false hh hc.time).1 hr) (.zero h1 rfl rfl rfl)⟩

theorem doStep_within (hm : OkOrError m) {h s t st : Rat} (hh : m.h = .fin h) {fuel : Nat} {w w' : World XRat D}
    {a d : Rat} {r o} (e : step m fuel w (.doStep (.fin a) (.fin d)) = .ret (w', r, o))
    (hT : Ticks h s t w.inst) (hst : w.inst.stopTime = .fin st) (hn : w.inst.nSteps + fuel < 2 ^ 64) :
    w'.inst.nSteps ≤ w.inst.nSteps + fuel ∧ w'.inst.stopTime = .fin st ∧
    ∃ t', Ticks h s t' w'.inst ∧ (t' = t ∨ Ahead t' (a + d) ∧ Ahead (a + d) st) := by
  by_cases hr : w.inst.clock.Rejects (.fin a) (.fin d)
  · obtain ⟨w1, e1, l, -, -, rfl⟩ := doStep_rejects (m := m) (fuel := fuel) hr
    rw [e1] at e; cases e
    exact ⟨Nat.le_add_right _ _, hst, t, ⟨hT.start, hT.time, hT.grid⟩, .inl rfl⟩
  · have hq : Ahead (a + d) st := by
      by_cases h1 : st < a + d
      · exact .inr (Classical.byContradiction fun h2 => hr (.pastStop hst h1 h2))
      · exact .inl (not_lt.1 h1)
    have triv : w.inst.nSteps ≤ w.inst.nSteps + fuel ∧ w.inst.stopTime = .fin st ∧
      ∃ t', Ticks h s t' w.inst ∧ (t' = t ∨ Ahead t' (a + d) ∧ Ahead (a + d) st) :=
      ⟨Nat.le_add_right _ _, hst, t, hT, .inl rfl⟩
    have triv' : ∀ msg, (w.inst.logError msg |>.setState .terminated).nSteps ≤ w.inst.nSteps + fuel ∧
      (w.inst.logError msg |>.setState .terminated).stopTime = .fin st ∧
      ∃ t', Ticks h s t' (w.inst.logError msg |>.setState .terminated) ∧
        (t' = t ∨ Ahead t' (a + d) ∧ Ahead (a + d) st) := fun msg =>
      ⟨Nat.le_add_right _ _, hst, t, ⟨hT.start, hT.time, hT.grid⟩, .inl rfl⟩
    simp only [step, World.run, doStep, begin, beginFunction] at e
    obtain ⟨⟨c, s', u⟩, e1, e⟩ := Outcome.bind_eq_ret.1 e
    cases e
    split at e1
    · split at e1
      · cases e1; exact triv' _
      · split at e1
        · cases e1; exact triv' _
        · split at e1
          · cases e1; exact triv' _
          · obtain ⟨n, hnf, hl⟩ := Loop.of_eq hm e1
            obtain ⟨k, hk, hc⟩ := hl.count' hm hh rfl hT (by omega)
            have hcl := hl.clock hm
            refine ⟨by rw [hc.nSteps]; omega, ?_, _, hc.ticks, ?_⟩
            · have := congrArg Clock.stop hcl
              split at this <;> exact this.trans hst
            · cases k with
              | zero => left; simp
              | succ k => exact .inr ⟨hc.last, hq⟩
    · cases e1; exact triv' _

theorem run_within (hm : OkOrError m) {h s st : Rat} (hh : m.h = .fin h) {fuel : Nat} :
    ∀ (ops : List (Op XRat)) {w : World XRat D} {t : Rat} {w' outs}, WInv CSModes w →
    (∀ op ∈ ops, ¬ EndsSession op) → (∀ ccp hc, .doStep ccp hc ∈ ops → ∃ a d, ccp = .fin a ∧ hc = .fin d) →
    run m fuel w ops = .ret (w', outs) →
    Ticks h s t w.inst → w.inst.stopTime = .fin st →
    w.inst.nSteps + fuel * ops.length < 2 ^ 64 →
    ∃ t', Ticks h s t' w'.inst ∧
      (t' = t ∨ ∃ a d, .doStep (.fin a) (.fin d) ∈ ops ∧ Ahead t' (a + d) ∧ Ahead (a + d) st) := by
  intro ops
  induction ops with
  | nil =>
    intro w t w' outs hw _ _ er hT _ _
    cases er
    exact ⟨t, hT, .inl rfl⟩
  | cons op ops ih =>
    intro w t w' outs hw hX hf er hT hst hn
    unfold run at er
    obtain ⟨⟨w1, s1, o1⟩, e1, er⟩ := Outcome.bind_eq_ret.1 er
    obtain ⟨⟨w2, l⟩, e2, er⟩ := Outcome.bind_eq_ret.1 er
    cases er
    rw [List.length_cons, Nat.mul_succ] at hn
    have hw1 : WInv CSModes w1 := step_inv hm (csModes m) hw op _ e1
    have key : w1.inst.nSteps ≤ w.inst.nSteps + fuel ∧ w1.inst.stopTime = .fin st ∧ ∃ t', Ticks h s t' w1.inst ∧
        (t' = t ∨ ∃ a d, op = .doStep (.fin a) (.fin d) ∧ Ahead t' (a + d) ∧ Ahead (a + d) st) := by
      by_cases hd : op.fn = .doStep
      · cases op <;> simp only [Op.fn, reduceCtorEq] at hd
        case doStep ccp hc =>
        obtain ⟨a, d, rfl, rfl⟩ := hf _ _ List.mem_cons_self
        obtain ⟨h1, h2, t', h3, h4⟩ := doStep_within hm hh e1 hT hst (by omega)
        exact ⟨h1, h2, t', h3, h4.imp id fun h => ⟨a, d, rfl, h⟩⟩
      · have := step_still hm (hX op (by simp)) hd hw _ e1
        simp only [Comp.times, Times.mk.injEq] at this
        obtain ⟨a1, a2, a3, a4, a5⟩ := this
        refine ⟨by omega, by simp_all, t, ⟨by simp_all [hT.start], by simp_all [hT.time], ?_⟩, .inl rfl⟩
        rw [hT.grid]; simp_all
    obtain ⟨hn1, hst1, t1, hT1, h1⟩ := key
    obtain ⟨t2, hT2, h2⟩ := ih hw1 (fun op h => hX op (by simp [h])) (fun _ _ h => hf _ _ (List.mem_cons_of_mem _ h)) e2 hT1 hst1 (by omega)
    refine ⟨t2, hT2, ?_⟩
    rcases h2 with rfl | ⟨a, d, h2, h3⟩
    · rcases h1 with rfl | ⟨a, d, rfl, h3⟩
      · exact .inl rfl
      · exact .inr ⟨a, d, by simp, h3⟩
    · exact .inr ⟨a, d, by simp [h2], h3⟩

end FMI2

namespace FMI3

theorem Loop.count' (hm : OkOrError m) {h q s : Rat} (hh : m.h = .fin h) {next : XRat} (hq : next = .fin q)
    {c c' : Comp XRat D} {n st ehn e r} (hl : FMI3.Loop m next c ehn n c' st e r) : ∀ {t : Rat}, Ticks h s t c →
    c.nSteps + n < 2 ^ 64 → ∃ k ≤ n, Count h q s t c c' k := by
  subst hq
  induction hl with
  | done hr =>
    intro t hc _
    exact ⟨0, le_rfl, .zero hc rfl rfl rfl⟩
  | step hr e _ ih =>
    intro t hc hn
    obtain ⟨h1, h2⟩ := hc.advance hh (by omega) (iter_frame hm e)
    obtain ⟨k, hk, a⟩ := ih h1 (by omega)
    exact ⟨k + 1, by omega, a.succ h2 ((reached_fin_false hh hc.time).1 (Bool.or_eq_false_iff.1 hr).1)⟩
  | leave hr e =>
    intro t hc hn
    obtain ⟨h1, h2⟩ := hc.advance hh (by omega) (iter_frame hm e)
    exact ⟨1, le_rfl, (Count.zero h1 rfl rfl rfl).succ h2
      ((reached_fin_false hh hc.time).1 (Bool.or_eq_false_iff.1 hr).1)⟩
  | error hr e =>
    intro t hc hn
    rcases iter_eq_ret hm e with ⟨h, -⟩ | ⟨-, c1, rfl, h | h⟩
    · cases h
    · exact ⟨0, by omega, .zero hc h.startTime h.nSteps (show c1.ctx.time = _ by rw [h.ctx]; rfl)⟩
    · obtain ⟨h1, h2⟩ := hc.advance hh (by omega) h
      exact ⟨1, le_rfl, Count.succ (c1 := c1) h2
        ((reached_fin_false hh hc.time).1 (Bool.or_eq_false_iff.1 hr).1) (.zero h1 rfl rfl rfl)⟩

theorem doStep_within (hm : OkOrError m) {h s t st : Rat} (hh : m.h = .fin h) {fuel : Nat} {w w' : World XRat D}
    {a d : Rat} {r o out} (e : step m fuel w (.doStep (.fin a) (.fin d) out) = .ret (w', r, o))
    (hT : Ticks h s t w.inst) (hst : w.inst.stopTime = .fin st) (hn : w.inst.nSteps + fuel < 2 ^ 64) :
    w'.inst.nSteps ≤ w.inst.nSteps + fuel ∧ w'.inst.stopTime = .fin st ∧
    ∃ t', Ticks h s t' w'.inst ∧ (t' = t ∨ Ahead t' (a + d) ∧ Ahead (a + d) st) := by
  by_cases hr : w.inst.clock.Rejects (.fin a) (.fin d)
  · obtain ⟨w1, e1, l, -, -, rfl⟩ := doStep_rejects (m := m) (fuel := fuel) (out := out) hr
    rw [e1] at e; cases e
    exact ⟨Nat.le_add_right _ _, hst, t, ⟨hT.start, hT.time, hT.grid⟩, .inl rfl⟩
  · have hq : Ahead (a + d) st := by
      by_cases h1 : st < a + d
      · exact .inr (Classical.byContradiction fun h2 => hr (.pastStop hst h1 h2))
      · exact .inl (not_lt.1 h1)
    have triv' : ∀ msg, (w.inst.logError msg |>.setState .terminated).nSteps ≤ w.inst.nSteps + fuel ∧
      (w.inst.logError msg |>.setState .terminated).stopTime = .fin st ∧
      ∃ t', Ticks h s t' (w.inst.logError msg |>.setState .terminated) ∧
        (t' = t ∨ Ahead t' (a + d) ∧ Ahead (a + d) st) := fun msg =>
      ⟨Nat.le_add_right _ _, hst, t, ⟨hT.start, hT.time, hT.grid⟩, .inl rfl⟩
    simp only [step, World.run, doStep, begin, beginFunction] at e
    obtain ⟨⟨c, s', u⟩, e1, e⟩ := Outcome.bind_eq_ret.1 e
    cases e
    split at e1
    · split at e1
      · cases e1; exact triv' _
      · split at e1
        · cases e1; exact triv' _
        · split at e1
          · cases e1; exact triv' _
          · split at e1
            · cases e1
            · obtain ⟨n, c1, s1, ehn, r, hnf, hl, hf⟩ := Loop.of_eq hm e1
              obtain ⟨k, hk, hc⟩ := hl.count' hm hh rfl hT (by omega)
              have hcl := congrArg Clock.stop (hl.clock hm)
              have main : c1.nSteps ≤ w.inst.nSteps + fuel ∧ c1.stopTime = .fin st ∧
                  ∃ t', Ticks h s t' c1 ∧ (t' = t ∨ Ahead t' (a + d) ∧ Ahead (a + d) st) := by
                refine ⟨by rw [hc.nSteps]; omega, hcl.trans hst, _, hc.ticks, ?_⟩
                cases k with
                | zero => left; simp
                | succ k => exact .inr ⟨hc.last, hq⟩
              unfold finish at hf
              split at hf
              · unfold doStepEnd at hf
                split at hf
                · cases hf
                · cases hf
                  obtain ⟨m1, m2, t', m3, m4⟩ := main
                  exact ⟨m1, m2, t', ⟨m3.start, m3.time, m3.grid⟩, m4⟩
              · cases hf; exact main
    · cases e1; exact triv' _

theorem run_within (hm : OkOrError m) {h s st : Rat} (hh : m.h = .fin h) {fuel : Nat} :
    ∀ (ops : List (Op XRat)) {w : World XRat D} {t : Rat} {w' outs},
    (∀ op ∈ ops, ¬ EndsSession op ∧ op.fn ≠ .setTime) →
    (∀ ccp hc out, .doStep ccp hc out ∈ ops → ∃ a d, ccp = .fin a ∧ hc = .fin d) →
    run m fuel w ops = .ret (w', outs) →
    Ticks h s t w.inst → w.inst.stopTime = .fin st →
    w.inst.nSteps + fuel * ops.length < 2 ^ 64 →
    ∃ t', Ticks h s t' w'.inst ∧
      (t' = t ∨ ∃ a d out, .doStep (.fin a) (.fin d) out ∈ ops ∧ Ahead t' (a + d) ∧ Ahead (a + d) st) := by
  intro ops
  induction ops with
  | nil =>
    intro w t w' outs _ _ er hT _ _
    cases er
    exact ⟨t, hT, .inl rfl⟩
  | cons op ops ih =>
    intro w t w' outs hX hf er hT hst hn
    unfold run at er
    obtain ⟨⟨w1, s1, o1⟩, e1, er⟩ := Outcome.bind_eq_ret.1 er
    obtain ⟨⟨w2, l⟩, e2, er⟩ := Outcome.bind_eq_ret.1 er
    cases er
    rw [List.length_cons, Nat.mul_succ] at hn
    have key : w1.inst.nSteps ≤ w.inst.nSteps + fuel ∧ w1.inst.stopTime = .fin st ∧ ∃ t', Ticks h s t' w1.inst ∧
        (t' = t ∨ ∃ a d out, op = .doStep (.fin a) (.fin d) out ∧ Ahead t' (a + d) ∧ Ahead (a + d) st) := by
      by_cases hd : op.fn = .doStep
      · cases op <;> simp only [Op.fn, reduceCtorEq] at hd
        case doStep ccp hc out =>
        obtain ⟨a, d, rfl, rfl⟩ := hf _ _ _ List.mem_cons_self
        obtain ⟨h1, h2, t', h3, h4⟩ := doStep_within hm hh e1 hT hst (by omega)
        exact ⟨h1, h2, t', h3, h4.imp id fun h => ⟨a, d, out, rfl, h⟩⟩
      · have := step_still hm (hX op (by simp)).1 hd (hX op (by simp)).2 _ e1
        simp only [Comp.times, Times.mk.injEq] at this
        obtain ⟨a1, a2, a3, a4, a5⟩ := this
        refine ⟨by omega, by simp_all, t, ⟨by simp_all [hT.start], by simp_all [hT.time], ?_⟩, .inl rfl⟩
        rw [hT.grid]; simp_all
    obtain ⟨hn1, hst1, t1, hT1, h1⟩ := key
    obtain ⟨t2, hT2, h2⟩ := ih (fun op h => hX op (by simp [h])) (fun _ _ _ h => hf _ _ _ (List.mem_cons_of_mem _ h)) e2 hT1 hst1 (by omega)
    refine ⟨t2, hT2, ?_⟩
    rcases h2 with rfl | ⟨a, d, out, h2, h3⟩
    · rcases h1 with rfl | ⟨a, d, out, rfl, h3⟩
      · exact .inl rfl
      · exact .inr ⟨a, d, out, by simp, h3⟩
    · exact .inr ⟨a, d, out, by simp [h2], h3⟩

end FMI3
end Verif
