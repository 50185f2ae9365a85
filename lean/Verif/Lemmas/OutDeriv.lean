import Verif.Lemmas.LensReads
import Verif.Spec.OutputDerivative

/-! # The loop over `getOutputDerivative` -/

set_option linter.unusedSectionVars false

namespace Verif.BouncingBall
variable {F : Type} [Arith F]

/-- What is written for the output `r`. -/
def outDer (d : Data F) (r : Nat) : F := if r = 1 then d.v else d.g

theorem getOutputDerivative_ok {ctx : Ctx F} {mv : MV F (Data F)} {r : Nat} {old : F} (h : (Spec.derivativeOf r).isSome) :
    getOutputDerivative ctx mv r 1 old = .ret (calcValues mv, .OK, outDer mv.data r) := by
  unfold Spec.derivativeOf at h
  split at h
  · rfl
  · rfl
  · simp at h

theorem getOutputDerivative_err {ctx : Ctx F} {mv : MV F (Data F)} {r : Nat} {k : Int} {old : F}
    (h : ¬ (k = 1 ∧ (Spec.derivativeOf r).isSome)) :
    ∃ mv', getOutputDerivative ctx mv r k old = .ret (mv', .Error, old) := by
  unfold getOutputDerivative
  split
  · exact ⟨_, rfl⟩
  · next hk =>
    have hk : k = 1 := Decidable.not_not.1 hk
    split
    · exact absurd ⟨hk, rfl⟩ h
    · exact absurd ⟨hk, rfl⟩ h
    · exact ⟨_, rfl⟩

/-- The loop from index `i` on, for arrays that end with `rs`, `ks` and `olds`. -/
theorem loop {N : Nat} : ∀ (rs : List Nat) (ks : List Int) (olds : List F) (rs₀ : List Nat) (ks₀ : List Int) (out : List F)
    (c : Comp F (Data F)), rs₀.length = N → ks₀.length = N → out.length = N → ks.length = rs.length → olds.length = rs.length →
    if (∀ x ∈ rs.zip ks, x.2 = 1 ∧ (Spec.derivativeOf x.1).isSome) then
      ∃ c', outputDerivLoop getOutputDerivative (some (rs₀ ++ rs)) (some (ks₀ ++ ks)) rs.length N c .OK (some (out ++ olds)) =
        .ret (c', .OK, some (out ++ rs.map (outDer c.mv.data)))
    else ∃ c' p, outputDerivLoop getOutputDerivative (some (rs₀ ++ rs)) (some (ks₀ ++ ks)) rs.length N c .OK (some (out ++ olds)) =
        .ret (c', .Error, p) := by
  intro rs
  induction rs generalizing N with
  | nil =>
    intro ks olds rs₀ ks₀ out c h1 h2 h3 h4 h5
    rw [if_pos (by simp)]
    obtain rfl := List.eq_nil_of_length_eq_zero h5
    exact ⟨c, rfl⟩
  | cons r rs ih =>
    intro ks olds rs₀ ks₀ out c h1 h2 h3 h4 h5
    obtain ⟨k, ks, rfl⟩ : ∃ k l, ks = k :: l := by cases ks with
      | nil => simp at h4
      | cons a l => exact ⟨a, l, rfl⟩
    obtain ⟨x, olds, rfl⟩ : ∃ k l, olds = k :: l := by cases olds with
      | nil => simp at h5
      | cons a l => exact ⟨a, l, rfl⟩
    have e1 : Ptr.read (some (rs₀ ++ r :: rs)) N = .ret r := by simp [Ptr.read, ← h1]
    have e2 : Ptr.read (some (ks₀ ++ k :: ks)) N = .ret k := by simp [Ptr.read, ← h2]
    have e3 : Ptr.read (some (out ++ x :: olds)) N = .ret x := by simp [Ptr.read, ← h3]
    have e4 : ∀ v, Ptr.write (some (out ++ x :: olds)) N v = .ret (some (out ++ v :: olds)) := by
      intro v; simp [Ptr.write, ← h3]
    by_cases h : k = 1 ∧ (Spec.derivativeOf r).isSome
    · have e5 : ∀ (c : Comp F (Data F)), outputDerivLoop getOutputDerivative (some (rs₀ ++ r :: rs)) (some (ks₀ ++ k :: ks))
          (r :: rs).length N c .OK (some (out ++ x :: olds)) =
          outputDerivLoop getOutputDerivative (some ((rs₀ ++ [r]) ++ rs)) (some ((ks₀ ++ [k]) ++ ks)) rs.length (N + 1)
            { c with mv := calcValues c.mv } .OK (some ((out ++ [outDer c.mv.data r]) ++ olds)) := by
        intro c
        rw [List.length_cons, outputDerivLoop, e1]
        simp only [Outcome.ret_bind]
        rw [e2]
        simp only [Outcome.ret_bind]
        rw [e3]
        simp only [Outcome.ret_bind]
        rw [h.1, getOutputDerivative_ok h.2]
        simp only [Comp.lift, Outcome.ret_bind]
        rw [e4]
        simp [call, Status.rank]
      rw [e5]
      have := ih (N := N + 1) ks olds (rs₀ ++ [r]) (ks₀ ++ [k]) (out ++ [outDer c.mv.data r]) { c with mv := calcValues c.mv }
        (by simp [h1]) (by simp [h2]) (by simp [h3]) (by simpa using h4) (by simpa using h5)
      by_cases hall : ∀ x ∈ rs.zip ks, x.2 = 1 ∧ (Spec.derivativeOf x.1).isSome
      · rw [if_pos hall] at this
        rw [if_pos (by
          intro x hx
          rcases List.mem_cons.1 hx with rfl | hx
          · exact h
          · exact hall x hx)]
        obtain ⟨c', e⟩ := this
        exact ⟨c', by rw [e]; simp [calcValues]⟩
      · rw [if_neg hall] at this
        rw [if_neg (fun h => hall fun x hx => h x (List.mem_cons_of_mem _ hx))]
        exact this
    · rw [if_neg (fun hh => h (hh (r, k) (by simp)))]
      rw [List.length_cons, outputDerivLoop, e1]
      simp only [Outcome.ret_bind]
      rw [e2]
      simp only [Outcome.ret_bind]
      rw [e3]
      simp only [Outcome.ret_bind]
      obtain ⟨mv', e⟩ := getOutputDerivative_err (ctx := c.ctx) (mv := c.mv) (old := x) h
      rw [e]
      simp only [Comp.lift, Outcome.ret_bind]
      rw [e4]
      exact ⟨_, _, rfl⟩

theorem of_mem_zip_map {rs : List Nat} {f : Nat → F} {x : Nat × F} (h : x ∈ rs.zip (rs.map f)) : x.1 ∈ rs ∧ x.2 = f x.1 := by
  induction rs with
  | nil => simp at h
  | cons r rs ih =>
    rcases List.mem_cons.1 h with rfl | h
    · exact ⟨by simp, rfl⟩
    · exact ⟨List.mem_cons_of_mem _ (ih h).1, (ih h).2⟩

theorem mem_zip_of_mem {rs : List Nat} {ks : List Int} (hk : ks.length = rs.length) {r : Nat} (h : r ∈ rs) : ∃ k, (r, k) ∈ rs.zip ks := by
  induction rs generalizing ks with
  | nil => simp at h
  | cons a rs ih =>
    cases ks with
    | nil => simp at hk
    | cons k ks =>
      rcases List.mem_cons.1 h with rfl | h
      · exact ⟨k, by simp⟩
      · obtain ⟨k', h'⟩ := ih (by simpa using hk) h
        exact ⟨k', by simp [h']⟩

/-- What is written is the value of the derivative variable. -/
theorem outDer_val {r r' : Nat} (h : Spec.derivativeOf r = some r') (τ : F) (d : Data F) :
    outDer d r = Lens.bouncingBall.val .float64 r' τ d ∧ (VType.float64, r') ∈ ([(.float64, 0), (.float64, 1), (.float64, 2), (.float64, 3),
      (.float64, 4), (.float64, 5), (.float64, 6), (.float64, 7)] : List (VType × Nat)) := by
  unfold Spec.derivativeOf at h
  split at h <;> cases h
  · exact ⟨rfl, by simp⟩
  · exact ⟨rfl, by simp⟩

end Verif.BouncingBall
