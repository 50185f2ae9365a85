import Verif.Lemmas.Reach3
import Verif.Lemmas.Loop

/-!
# More fuel gives the same results

Fuel bounds the number of solver steps of one `DoStep`.
-/

set_option linter.unusedSectionVars false

namespace Verif
variable {F D : Type} [Arith F] [HasInf F] {m : Model F D}

namespace FMI2

theorem step_fuel (hm : OkOrError m) {f f' : Nat} (hf : f < f') {w : World F D} {op : Op F} {x}
    (e : step m f w op = .ret x) : step m f' w op = .ret x := by
  by_cases hd : op.fn = .doStep
  · cases op <;> simp only [Op.fn, reduceCtorEq] at hd
    case doStep ccp h =>
    simp only [step, World.run, doStep, begin, beginFunction] at e ⊢
    obtain ⟨⟨c, s', u⟩, e1, e⟩ := Outcome.bind_eq_ret.1 e
    rw [← e]
    split at e1
    · next h1 =>
      rw [if_pos h1]
      split at e1
      · next h2 => rw [if_pos h2]; cases e1; rfl
      · next h2 =>
        rw [if_neg h2]
        split at e1
        · next h3 => rw [if_pos h3]; cases e1; rfl
        · next h3 =>
          rw [if_neg h3]
          split at e1
          · next h4 => rw [if_pos h4]; cases e1; rfl
          · next h4 =>
            rw [if_neg h4]
            obtain ⟨n, hn, hl⟩ := Loop.of_eq hm e1
            rw [hl.eq hm (by omega)]
            rfl
    · next h1 => rw [if_neg h1]; cases e1; rfl
  · cases op <;> first | exact e | exact absurd rfl hd

theorem run_fuel (hm : OkOrError m) {f f' : Nat} (hf : f < f') : ∀ {ops : List (Op F)} {w : World F D} {x},
    run m f w ops = .ret x → run m f' w ops = .ret x := by
  intro ops
  induction ops with
  | nil => intro w x h; exact h
  | cons op ops ih =>
    intro w x h
    simp only [run] at h ⊢
    obtain ⟨⟨w1, s, o⟩, e1, h⟩ := Outcome.bind_eq_ret.1 h
    obtain ⟨⟨w2, l⟩, e2, h⟩ := Outcome.bind_eq_ret.1 h
    simp only [step_fuel hm hf e1, Outcome.ret_bind, ih e2]
    exact h

theorem run_snoc {fuel : Nat} {op : Op F} : ∀ {ops : List (Op F)} {w w1 w' : World F D} {outs s o},
    run m fuel w ops = .ret (w1, outs) → step m fuel w1 op = .ret (w', s, o) →
    run m fuel w (ops ++ [op]) = .ret (w', outs ++ [(s, o)]) := by
  intro ops
  induction ops with
  | nil => intro w w1 w' outs s o h e; cases h; simp [run, e]
  | cons a ops ih =>
    intro w w1 w' outs s o h e
    simp only [run] at h
    obtain ⟨⟨w2, s2, o2⟩, e1, h⟩ := Outcome.bind_eq_ret.1 h
    obtain ⟨⟨w3, l⟩, e2, h⟩ := Outcome.bind_eq_ret.1 h
    cases h
    simp [run, e1, ih e2 e]

/-- One more call. -/
theorem Reachable.call (hm : OkOrError m) {t : IType} {w w' : World F D} (h : Reachable m t w)
    {fuel : Nat} {op : Op F} {s o} (e : step m fuel w op = .ret (w', s, o)) : Reachable m t w' := by
  obtain ⟨name, guid, resource, functions, loggingOn, mem, c, l, w₀, fuel', ops, outs, h1, h2, h3⟩ := h
  have h3 := run_fuel hm (f' := fuel + fuel' + 1) (by omega) h3
  have e := step_fuel hm (f' := fuel + fuel' + 1) (by omega) e
  exact ⟨name, guid, resource, functions, loggingOn, mem, c, l, w₀, _, _, _, h1, h2, run_snoc h3 e⟩

/-- More calls. -/
theorem Reachable.run (hm : OkOrError m) {t : IType} {fuel : Nat} {ops : List (Op F)} :
    ∀ {w w' : World F D} {outs}, Reachable m t w → FMI2.run m fuel w ops = .ret (w', outs) →
    Reachable m t w' := by
  induction ops with
  | nil => intro w w' outs h e; cases e; exact h
  | cons op ops ih =>
    intro w w' outs h e
    simp only [FMI2.run] at e
    obtain ⟨⟨w1, s, o⟩, e1, e⟩ := Outcome.bind_eq_ret.1 e
    obtain ⟨⟨w2, l⟩, e2, e⟩ := Outcome.bind_eq_ret.1 e
    cases e
    exact ih (Reachable.call hm h e1) e2

end FMI2

namespace FMI3

theorem step_fuel (hm : OkOrError m) {f f' : Nat} (hf : f < f') {w : World F D} {op : Op F} {x}
    (e : step m f w op = .ret x) : step m f' w op = .ret x := by
  by_cases hd : op.fn = .doStep
  · cases op <;> simp only [Op.fn, reduceCtorEq] at hd
    case doStep ccp h out =>
    simp only [step, World.run, doStep, begin, beginFunction] at e ⊢
    obtain ⟨⟨c, s', u⟩, e1, e⟩ := Outcome.bind_eq_ret.1 e
    rw [← e]
    split at e1
    · next h1 =>
      rw [if_pos h1]
      split at e1
      · next h2 => rw [if_pos h2]; cases e1; rfl
      · next h2 =>
        rw [if_neg h2]
        split at e1
        · next h3 => rw [if_pos h3]; cases e1; rfl
        · next h3 =>
          rw [if_neg h3]
          split at e1
          · next h4 => rw [if_pos h4]; cases e1; rfl
          · next h4 =>
            rw [if_neg h4]
            split at e1
            · cases e1
            · next h5 =>
              rw [if_neg h5]
              obtain ⟨n, c1, s1, ehn, r, hn, hl, hfin⟩ := Loop.of_eq hm e1
              rw [hl.eq hm (by omega), hfin]
              rfl
    · next h1 => rw [if_neg h1]; cases e1; rfl
  · cases op <;> first | exact e | exact absurd rfl hd

theorem run_fuel (hm : OkOrError m) {f f' : Nat} (hf : f < f') : ∀ {ops : List (Op F)} {w : World F D} {x},
    run m f w ops = .ret x → run m f' w ops = .ret x := by
  intro ops
  induction ops with
  | nil => intro w x h; exact h
  | cons op ops ih =>
    intro w x h
    simp only [run] at h ⊢
    obtain ⟨⟨w1, s, o⟩, e1, h⟩ := Outcome.bind_eq_ret.1 h
    obtain ⟨⟨w2, l⟩, e2, h⟩ := Outcome.bind_eq_ret.1 h
    simp only [step_fuel hm hf e1, Outcome.ret_bind, ih e2]
    exact h

theorem run_snoc {fuel : Nat} {op : Op F} : ∀ {ops : List (Op F)} {w w1 w' : World F D} {outs s o},
    run m fuel w ops = .ret (w1, outs) → step m fuel w1 op = .ret (w', s, o) →
    run m fuel w (ops ++ [op]) = .ret (w', outs ++ [(s, o)]) := by
  intro ops
  induction ops with
  | nil => intro w w1 w' outs s o h e; cases h; simp [run, e]
  | cons a ops ih =>
    intro w w1 w' outs s o h e
    simp only [run] at h
    obtain ⟨⟨w2, s2, o2⟩, e1, h⟩ := Outcome.bind_eq_ret.1 h
    obtain ⟨⟨w3, l⟩, e2, h⟩ := Outcome.bind_eq_ret.1 h
    cases h
    simp [run, e1, ih e2 e]

/-- One more call. -/
theorem Reachable.call (hm : OkOrError m) {t : IType} {w w' : World F D} (h : Reachable m t w)
    {fuel : Nat} {op : Op F} {s o} (e : step m fuel w op = .ret (w', s, o)) : Reachable m t w' := by
  obtain ⟨c, w₀, fuel', ops, outs, h1, h2, h3⟩ := h
  have h3 := run_fuel hm (f' := fuel + fuel' + 1) (by omega) h3
  have e := step_fuel hm (f' := fuel + fuel' + 1) (by omega) e
  exact ⟨c, w₀, _, _, _, h1, h2, run_snoc h3 e⟩

/-- More calls. -/
theorem Reachable.run (hm : OkOrError m) {t : IType} {fuel : Nat} {ops : List (Op F)} :
    ∀ {w w' : World F D} {outs}, Reachable m t w → FMI3.run m fuel w ops = .ret (w', outs) →
    Reachable m t w' := by
  induction ops with
  | nil => intro w w' outs h e; cases e; exact h
  | cons op ops ih =>
    intro w w' outs h e
    simp only [FMI3.run] at e
    obtain ⟨⟨w1, s, o⟩, e1, e⟩ := Outcome.bind_eq_ret.1 e
    obtain ⟨⟨w2, l⟩, e2, e⟩ := Outcome.bind_eq_ret.1 e
    cases e
    exact ih (Reachable.call hm h e1) e2

end FMI3

end Verif
