import Verif.Spec.ExitStatus
import Verif.Lemmas.FeedthroughRun

/-!
# What the status that the macro `CALL` and `tearDown` leave says
-/

set_option linter.unusedSectionVars false

namespace Verif
open Importer.CoSim

section
variable {F W O V : Type} {api : Api F W O V} {rows rows' : List (Row F V)} {w₀ w : W}

theorem tearDown_ret {st s : Status} (h : tearDown api w st rows = .ret (s, rows')) :
    rows' = rows ∧ (s = .OK → st = .OK ∧ ∃ w' v, api.call w api.terminate = .ret (w', .OK, v)) ∧
      (s ≠ .OK → st ≠ .OK ∨ ∃ w' s' v, api.call w api.terminate = .ret (w', s', v) ∧ s' ≠ .OK) := by
  unfold tearDown at h
  split at h
  · obtain ⟨⟨w1, s1, v⟩, e1, e2⟩ := Outcome.bind_eq_ret.1 h
    cases e2
    refine ⟨rfl, fun h => ?_, fun h => ?_⟩
    · have key : st = .OK ∧ s1 = .OK := by
        cases st <;> cases s1 <;> simp [Status.rank] at h ⊢
      exact ⟨key.1, w1, v, by rw [e1, key.2]⟩
    · by_cases hs : s1 = .OK
      · refine .inl fun ht => h ?_
        subst hs ht
        rfl
      · exact .inr ⟨w1, s1, v, e1, hs⟩
  · next hr =>
    cases h
    refine ⟨rfl, fun h => ?_, fun h => .inl h⟩
    subst h
    exact absurd (by decide) hr

/-- A call fails after calls that succeed. -/
theorem calls_ret {call : W → O → Outcome (W × Status × V)} {ops : List O} {w w' : W} {s vs} (h : calls call ops w = .ret (w', s, vs)) :
    (s = .OK ∧ AllOK call w ops w' vs) ∨ s ≠ .OK ∧ ∃ pre w₁ us op v, AllOK call w pre w₁ us ∧ call w₁ op = .ret (w', s, v) := by
  induction ops generalizing w vs with
  | nil => cases h; exact .inl ⟨rfl, .nil⟩
  | cons o os ih =>
    unfold calls at h
    obtain ⟨⟨w1, s1, v⟩, e1, e2⟩ := Outcome.bind_eq_ret.1 h
    simp only [] at e2
    split at e2
    · next hs =>
      subst hs
      obtain ⟨⟨w2, s2, vs2⟩, e3, e4⟩ := Outcome.bind_eq_ret.1 e2
      cases e4
      rcases ih e3 with ⟨rfl, ha⟩ | ⟨hs, pre, w₁, us, op, v, ha, e⟩
      · exact .inl ⟨rfl, .cons e1 ha⟩
      · exact .inr ⟨hs, _, w₁, _, op, v, .cons e1 ha, e⟩
    · next hs => cases e2; exact .inr ⟨hs, [], w, [], o, v, .nil, e1⟩

theorem CALLS_ret {ops : List O} {k : W → List V → Outcome (Status × List (Row F V))} {s : Status} (h : CALLS api ops w rows k = .ret (s, rows')) :
    (∃ w' vs, AllOK api.call w ops w' vs ∧ k w' vs = .ret (s, rows')) ∨
      s ≠ .OK ∧ rows' = rows ∧ ∃ pre w₁ us op w' s' v, AllOK api.call w pre w₁ us ∧ api.call w₁ op = .ret (w', s', v) ∧ s' ≠ .OK := by
  unfold CALLS at h
  obtain ⟨⟨w1, s1, vs⟩, e1, e2⟩ := Outcome.bind_eq_ret.1 h
  simp only [] at e2
  rcases calls_ret e1 with ⟨rfl, ha⟩ | ⟨hs, pre, w₁, us, op, v, ha, e⟩
  · rw [if_pos rfl] at e2
    exact .inl ⟨w1, vs, ha, e2⟩
  · rw [if_neg hs] at e2
    obtain ⟨h1, h2, -⟩ := tearDown_ret e2
    exact .inr ⟨fun h => hs (h2 h).1, h1, pre, w₁, us, op, w1, s1, v, ha, e, hs⟩

variable [Arith F] {P : Program F O} {goes : W → F → W → Prop} {ends : W → F → W → List (Row F V) → Prop}

/-- The loop returns OK only if all calls succeed. -/
theorem loop_ok (hg : ∀ {w t w'}, api.advance w t = .ret (w', .OK, .goOn) → goes w t w')
    (h0 : ∀ {w t w'}, api.advance w t = .ret (w', .OK, .stop none) → ends w t w' [])
    (h1 : ∀ {w t w₁ w' t' vs}, api.advance w t = .ret (w₁, .OK, .stop (some t')) → AllOK api.call w₁ P.record w' vs → ends w t w' [⟨t', vs⟩])
    {n k : Nat} (hp : Proceeds api.call goes P w₀ k w rows) (hk : ∀ j < k, (P.stopTime <=. P.point j) = false)
    (h : loop api P n k w rows = .ret (.OK, rows')) : Completed api.call goes ends api.terminate P w₀ rows' := by
  induction n generalizing k w rows with
  | zero => cases h
  | succ n ih =>
    unfold loop at h
    rcases CALLS_ret h with ⟨w1, vs, ha, e⟩ | ⟨h, -⟩
    swap
    · exact absurd rfl h
    rcases CALLS_ret e with ⟨w2, us, hb, e⟩ | ⟨h, -⟩
    swap
    · exact absurd rfl h
    have hv : Visits api.call P k w w2 ⟨P.point k, vs⟩ := ⟨rfl, w1, us, ha, hb⟩
    change (if P.stopTime <=. P.point k then _ else _) = _ at e
    split at e
    · next hs =>
      obtain ⟨rfl, h2, -⟩ := tearDown_ret e
      obtain ⟨-, w3, v, et⟩ := h2 rfl
      exact .complete hp hv hk hs et
    · next hs =>
      have hs : (P.stopTime <=. P.point k) = false := by simpa using hs
      have hk' : ∀ j ≤ k, (P.stopTime <=. P.point j) = false := fun j hj => (Nat.lt_or_eq_of_le hj).elim (hk j) (by rintro rfl; exact hs)
      obtain ⟨⟨w3, s3, next⟩, e3, e4⟩ := Outcome.bind_eq_ret.1 e
      simp only [] at e4
      split at e4
      · next hs3 =>
        subst hs3
        cases next with
        | goOn => exact ih (.succ hp hv (hg e3)) (fun j hj => hk' j (by omega)) e4
        | stop t =>
          cases t with
          | none =>
            obtain ⟨rfl, h2, -⟩ := tearDown_ret e4
            obtain ⟨-, w4, v, et⟩ := h2 rfl
            exact .ended hp hv hk' (h0 e3) et
          | some t =>
            rcases CALLS_ret e4 with ⟨w4, vs4, ha4, e5⟩ | ⟨h, -⟩
            swap
            · exact absurd rfl h
            obtain ⟨rfl, h2, -⟩ := tearDown_ret e5
            obtain ⟨-, w5, v, et⟩ := h2 rfl
            have := Completed.ended (row := ⟨P.point k, vs⟩) hp hv hk' (h1 e3 ha4) et
            rw [List.append_assoc]
            exact this
      · next hs3 => exact absurd ((tearDown_ret e4).2.1 rfl).1 hs3

/-- The loop returns another status only if a call fails. -/
theorem loop_failed (ha : ∀ {ops w vs t w' s next}, AllOK api.call w₀ ops w vs → api.advance w t = .ret (w', s, next) →
      (s = .OK ∧ ∃ ops vs, AllOK api.call w₀ ops w' vs) ∨ SomeCallFails api.call w₀)
    {n k : Nat} {ops vs} (hw : AllOK api.call w₀ ops w vs) {s : Status} (hs : s ≠ .OK) (h : loop api P n k w rows = .ret (s, rows')) :
    SomeCallFails api.call w₀ := by
  have term : ∀ {ops w vs rows}, AllOK api.call w₀ ops w vs → tearDown api w .OK rows = .ret (s, rows') → SomeCallFails api.call w₀ := by
    intro ops w vs rows hw h
    rcases (tearDown_ret h).2.2 hs with h | ⟨w', s', v, e, hs'⟩
    · exact absurd rfl h
    · exact ⟨_, _, _, _, _, _, _, hw, e, hs'⟩
  induction n generalizing k w rows ops vs with
  | zero => cases h
  | succ n ih =>
    unfold loop at h
    rcases CALLS_ret h with ⟨w1, vs1, ha1, e⟩ | ⟨-, -, pre, w₁, us, op, w', s', v, hb, e, hs'⟩
    swap
    · exact ⟨_, _, _, _, _, _, _, hw.append hb, e, hs'⟩
    have hw := hw.append ha1
    rcases CALLS_ret e with ⟨w2, us, hb, e⟩ | ⟨-, -, pre, w₁, us, op, w', s', v, hb, e, hs'⟩
    swap
    · exact ⟨_, _, _, _, _, _, _, hw.append hb, e, hs'⟩
    have hw := hw.append hb
    simp only [] at e
    split at e
    · exact term hw e
    · obtain ⟨⟨w3, s3, next⟩, e3, e4⟩ := Outcome.bind_eq_ret.1 e
      rcases ha hw e3 with ⟨rfl, ops3, vs3, hw⟩ | h
      swap
      · exact h
      simp only [if_true] at e4
      cases next with
      | goOn => exact ih hw e4
      | stop t =>
        cases t with
        | none => exact term hw e4
        | some t =>
          rcases CALLS_ret e4 with ⟨w4, vs4, ha4, e5⟩ | ⟨-, -, pre, w₁, us, op, w', s', v, hb, e, hs'⟩
          · exact term (hw.append ha4) e5
          · exact ⟨_, _, _, _, _, _, _, hw.append hb, e, hs'⟩

end

namespace FMI3
variable {F D : Type} [Arith F] [HasInf F] {m : Model F D} {fuel : Nat}

theorem advance3_ret {h t : F} {w w' : World F D} {s : Status} {next : Next F} (e : advance3 m fuel h w t = .ret (w', s, next)) :
    ∃ r, step m fuel w (.doStep t h ⟨some false, some false, some false, some (Arith.lit 0)⟩) = .ret (w', s, .step r) ∧
      next = if r.terminateSimulation = some true then .stop none else .goOn := by
  unfold advance3 at e
  obtain ⟨⟨w1, s1, o⟩, e1, e2⟩ := Outcome.bind_eq_ret.1 e
  obtain ⟨r, rfl⟩ : ∃ r, o = .step r := by
    simp only [step, World.run] at e1
    obtain ⟨⟨c', s', b⟩, -, e3⟩ := Outcome.bind_eq_ret.1 e1
    cases e3; exact ⟨_, rfl⟩
  cases e2
  exact ⟨r, e1, rfl⟩

end FMI3

namespace FMI2
variable {F D : Type} [Arith F] [HasInf F] {m : Model F D} {fuel : Nat}

/-- The step of the program: the step is made or fails; or it is discarded, and then the status is asked for. -/
theorem advance2_ret {h t : F} {w w' : World F D} {s : Status} {next : Next F} (e : advance2 m fuel h w t = .ret (w', s, next)) :
    (∃ o, step m fuel w (.doStep t h) = .ret (w', s, o) ∧ next = .goOn) ∨
    ∃ w₁ o, step m fuel w (.doStep t h) = .ret (w₁, .Discard, o) ∧ (s = .OK →
      (∃ o', step m fuel w₁ (.getBooleanStatus .terminated (some false)) = .ret (w', .OK, o') ∧ o' ≠ .bool (some true) ∧ next = .goOn) ∨
      ∃ t', AllOK (step m fuel) w₁ [.getBooleanStatus .terminated (some false), .getRealStatus .lastSuccessfulTime (some (Arith.lit 0))] w'
        [.bool (some true), .real (some t')] ∧ next = .stop (some t')) := by
  unfold advance2 at e
  obtain ⟨⟨w1, s1, o⟩, e1, e2⟩ := Outcome.bind_eq_ret.1 e
  simp only [] at e2
  split at e2
  · next hs =>
    subst hs
    refine .inr ⟨w1, o, e1, fun hs => ?_⟩
    obtain ⟨⟨w2, s2, o2⟩, e3, e4⟩ := Outcome.bind_eq_ret.1 e2
    simp only [] at e4
    split at e4
    · next hs2 =>
      subst hs2
      split at e4
      · obtain ⟨⟨w3, s3, o3⟩, e5, e6⟩ := Outcome.bind_eq_ret.1 e4
        obtain ⟨v, rfl, hv⟩ : ∃ v, o3 = .real v ∧ (s3 = .OK → ∃ t', v = some t') := by
          simp only [step, World.run] at e5
          obtain ⟨⟨c', s', b⟩, e7, e8⟩ := Outcome.bind_eq_ret.1 e5
          cases e8
          refine ⟨_, rfl, fun hs => ?_⟩
          simp only [getRealStatus, begin, beginFunction, if_true] at e7
          split at e7 <;> cases e7
          · exact ⟨_, rfl⟩
          · cases hs
        cases e6
        obtain ⟨t', rfl⟩ := hv hs
        subst hs
        exact .inr ⟨t', .cons e3 (.cons e5 .nil), rfl⟩
      · next hn =>
        cases e4
        exact .inl ⟨o2, e3, hn, rfl⟩
    · next hs2 => cases e4; exact absurd hs hs2
  · cases e2; exact .inl ⟨o, e1, rfl⟩

end FMI2
end Verif
