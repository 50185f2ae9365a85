import Verif.Props.C65

/-! # The programs for Co-Simulation when the last step is refused -/

set_option linter.unusedSectionVars false

namespace Verif
open Importer.CoSim

section
variable {F W O V : Type} [Arith F] {api : Api F W O V} {goes : W → F → W → Prop} {ends : W → F → List (Row F V) → Prop} {P : Program F O}
  {N : Nat} {Inv : Nat → W → Prop}

theorem Drives.refused (h : Drives api goes ends P N Inv) (hstop : ∀ k ≤ N, (P.stopTime <=. P.point k) = false)
    (hr : ∀ {w}, Inv N w → ∃ w' x, api.advance w (P.point N) = .ret (w', .Error, x)) {w₀ : W} {Q : W → Prop}
    (hQ : ∀ {w o w' v}, Q w → api.call w o = .ret (w', .OK, v) → Q w') (hG : ∀ {w t w'}, Q w → goes w t w' → Q w')
    (hE : ∀ {w t last}, Q w → ¬ends w t last) (hq₀ : Q w₀) :
    ∀ {n k : Nat} {w : W} {rows : List (Row F V)}, k ≤ N → N < k + n → Proceeds api.call goes P w₀ k w rows → Inv k w →
      ∃ w₁ rows' w₂ row, Importer.CoSim.loop api P n k w rows = .ret (.Error, rows' ++ [row]) ∧ Proceeds api.call goes P w₀ N w₁ rows' ∧
        Visits api.call P N w₁ w₂ row := by
  intro n
  induction n with
  | zero => intro k w rows h1 h2; omega
  | succ n ih =>
    intro k w rows hk hn hp hi
    obtain ⟨w₁, vs, h1, hi⟩ := h.record hk hi
    obtain ⟨w₂, us, h2, hi⟩ := h.inputs hk hi
    have hv : Visits api.call P k w w₂ ⟨P.point k, vs⟩ := ⟨rfl, w₁, us, h1, h2⟩
    unfold Importer.CoSim.loop
    simp only []
    rw [CALLS_ok h1]
    change ∃ _ _ _ _, CALLS api (P.inputs (P.point k)) w₁ _ _ = _ ∧ _
    rw [CALLS_ok h2]
    change ∃ _ _ _ _, (if (P.stopTime <=. P.point k) = true then _ else _) = _ ∧ _
    rw [hstop k hk, if_neg (by simp)]
    by_cases hkN : k = N
    · subst hkN
      obtain ⟨w₃, x, h3⟩ := hr hi
      refine ⟨w, rows, w₂, _, ?_, hp, hv⟩
      change (api.advance w₂ (P.point k) >>- _) = _
      rw [h3]
      simp only [Outcome.ret_bind, reduceCtorEq, if_false]
      simp only [tearDown, Nat.lt_irrefl, if_false]
      rfl
    · have hlt : k < N := by omega
      have hq : Q w₂ := hv.inv hQ (hp.inv hQ hG hq₀)
      rcases h.advance hlt hi with ⟨w', ha, hg, hi'⟩ | ⟨w', w'', v, ha, he, ht⟩ | ⟨w', w₃, w'', t, vs', v, ha, hr, he, ht⟩
      · change ∃ _ _ _ _, (api.advance w₂ (P.point k) >>- _) = _ ∧ _
        rw [ha]
        simp only [Outcome.ret_bind, if_true]
        exact ih (by omega) (by omega) (.succ hp hv hg) hi'
      · exact absurd he (hE hq)
      · exact absurd he (hE hq)

end

/-- The end of the next step lies behind the stop time. -/
theorem refuses {k : Clock XRat} {a h stop : Rat} (hs : k.stop = .fin stop) (h1 : stop < a + h) (h2 : ¬Close (a + h) stop) :
    (k.stop <. (XRat.fin a +. .fin h) && !isClose (XRat.fin a +. .fin h) k.stop) = true := by
  rw [hs, XRat.add_fin, XRat.lt_fin, Bool.and_eq_true, decide_eq_true_eq, Bool.not_eq_true', isClose_fin_false]
  exact ⟨h1, h2⟩

end Verif
