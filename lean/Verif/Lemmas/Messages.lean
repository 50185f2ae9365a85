import Verif.Spec.Messages

/-!
# What `printf` makes of a format
-/

namespace Verif.Importer.Messages
open Verif Spec.Messages

variable {F : Type} {C : CLib F}

theorem sprintf_plain : ∀ {f : List Char}, '%' ∉ f → ∀ {as : List (Val F)}, sprintf C none f as = .ret f
  | [], _, _ => rfl
  | c :: f, h, as => by
    rw [List.mem_cons, not_or] at h
    rw [sprintf, if_neg (Ne.symm h.1), sprintf_plain h.2]; rfl

theorem sprintf_append : ∀ {p : List Char}, '%' ∉ p → ∀ {f : List Char} {as : List (Val F)},
    sprintf C none (p ++ f) as = sprintf C none f as >>- fun t => .ret (p ++ t)
  | [], _, f, as => by cases h : sprintf C none f as <;> simp [h, Outcome.bind]
  | c :: p, h, f, as => by
    rw [List.mem_cons, not_or] at h
    rw [List.cons_append, sprintf, if_neg (Ne.symm h.1), sprintf_append h.2]
    cases sprintf C none f as <;> rfl

theorem conversion_nil {spec : List Char} (h : spec ≠ ['%']) : conversion C spec [] = .ub := by simp [conversion, h]

/-- A text that is used as a format without arguments. -/
theorem sprintf_unescape : ∀ (t : List Char), sprintf C none t ([] : List (Val F)) = match unescape t with | some u => .ret u | none => .ub
  | [] => rfl
  | [c] => by
    rw [unescape]
    by_cases hc : c = '%'
    · subst hc; rfl
    · rw [sprintf, if_neg hc, if_neg hc]; rfl
  | c :: d :: t => by
    rw [unescape]
    by_cases hc : c = '%'
    · subst hc
      rw [if_pos rfl, sprintf, if_pos rfl]
      by_cases hd : d = '%'
      · subst hd
        rw [if_pos rfl, sprintf, if_neg (by decide)]
        show (sprintf C none t [] >>- fun u => Outcome.ret ('%' :: u)) = _
        rw [sprintf_unescape t]
        cases unescape t <;> rfl
      · rw [if_neg hd]
        suffices h : ∀ (f m : List Char), m ≠ [] → m ≠ ['%'] → m.head? ≠ some '%' → (m ∈ prefixes → sprintf C (some m) f ([] : List (Val F)) = .ub) by
          rw [sprintf]
          have hm : ([] ++ [d] : List Char) ≠ ['%'] := by simpa using hd
          split
          · exact h _ _ (by simp) hm (by simpa using hd) ‹_›
          · rw [conversion_nil hm]; rfl
        intro f
        induction f with
        | nil => intro m _ _ _ _; rfl
        | cons c f ih =>
          intro m h1 h2 h3 _
          have h4 : (m ++ [c]).head? ≠ some '%' := by
            cases m with
            | nil => exact absurd rfl h1
            | cons a m => exact h3
          have h5 : m ++ [c] ≠ ['%'] := fun h => h4 (by rw [h]; rfl)
          rw [sprintf]
          split
          · exact ih _ (by simp) h5 h4 ‹_›
          · rw [conversion_nil h5]; rfl
    · rw [if_neg hc, sprintf, if_neg hc, sprintf_unescape (d :: t)]
      cases unescape (d :: t) <;> rfl

theorem unescape_plain : ∀ {t : List Char}, '%' ∉ t → unescape t = some t
  | [], _ => rfl
  | [c], h => by rw [List.mem_singleton] at h; rw [unescape, if_neg (Ne.symm h)]
  | c :: d :: t, h => by
    rw [List.mem_cons, not_or] at h
    rw [unescape, if_neg (Ne.symm h.1), unescape_plain h.2]; rfl

theorem decimal_percent (i : Int) : '%' ∉ OutputFile.decimal i := by
  have key : ∀ {n : Nat}, '%' ∉ Nat.toDigits 10 n := by
    intro n h
    exact absurd (Nat.isDigit_of_mem_toDigits (by decide) (by decide) h) (by decide)
  cases i with
  | ofNat n => exact key
  | negSucc n =>
    simp only [OutputFile.decimal, List.mem_cons, not_or]
    exact ⟨by decide, key⟩

/-- The format contains no `%%`. -/
def single : Option (List Char) → List Char → Bool
  | _, [] => true
  | none, c :: f => if c = '%' then single (some []) f else single none f
  | some m, c :: f => if m ++ [c] ∈ prefixes then single (some (m ++ [c])) f else m ++ [c] != ['%'] && single none f

/-- No string among the arguments contains a percent sign. -/
def Clean (as : List (Val F)) : Prop := ∀ s, Val.string (some s) ∈ as → '%' ∉ s

theorem conversion_clean (h1 : ∀ x, '%' ∉ C.g x) (h2 : ∀ x, '%' ∉ C.g16 x) {spec : List Char} (hs : spec ≠ ['%']) {as : List (Val F)} (ha : Clean as) {r}
    (h : conversion C spec as = .ret r) : '%' ∉ r.1 ∧ Clean r.2 := by
  unfold conversion at h
  rw [if_neg hs] at h
  have tl : ∀ {a : Val F} {l}, Clean (a :: l) → Clean l := fun h s hs => h s (.tail _ hs)
  split at h
  case h_7 => cases h
  all_goals split at h
  case h_5.isFalse => split at h <;> first | (cases h; exact ⟨h2 _, tl ha⟩) | cases h
  all_goals first
    | (cases h; refine ⟨?_, tl ha⟩; first | exact decimal_percent _ | exact decimal_percent (Nat.cast _) | exact h1 _ | exact h2 _ | exact ha _ (.head _))
    | cases h

theorem sprintf_clean (h1 : ∀ x, '%' ∉ C.g x) (h2 : ∀ x, '%' ∉ C.g16 x) : ∀ {f : List Char} {st : Option (List Char)}, single st f = true → ∀ {as : List (Val F)}, Clean as → ∀ {t},
    sprintf C st f as = .ret t → '%' ∉ t := by
  intro f
  induction f with
  | nil =>
    intro st _ as _ t h
    cases st with
    | none => cases h; simp
    | some m => cases h
  | cons c f ih =>
    intro st hs as ha t h
    cases st with
    | none =>
      rw [single] at hs; rw [sprintf] at h
      split at hs
      · rw [if_pos ‹_›] at h; exact ih hs ha h
      · rename_i hc
        rw [if_neg hc] at h
        cases hh : sprintf C none f as with
        | ret u =>
          rw [hh] at h; cases h
          rw [List.mem_cons, not_or]
          exact ⟨Ne.symm hc, ih hs ha hh⟩
        | ub => rw [hh] at h; cases h
        | hang => rw [hh] at h; cases h
    | some m =>
      rw [single] at hs; rw [sprintf] at h
      split at hs
      · rw [if_pos ‹_›] at h; exact ih hs ha h
      · rename_i hc
        rw [if_neg hc] at h
        rw [Bool.and_eq_true] at hs
        cases hr : conversion C (m ++ [c]) as with
        | ret r =>
          obtain ⟨h3, h4⟩ := conversion_clean h1 h2 (by simpa using hs.1) ha hr
          rw [hr] at h
          cases hh : sprintf C none f r.2 with
          | ret u =>
            have h5 := ih hs.2 h4 hh
            simp only [Outcome.ret_bind, hh] at h
            cases h
            rw [List.mem_append, not_or]
            exact ⟨h3, h5⟩
          | ub => simp only [Outcome.ret_bind, hh] at h; cases h
          | hang => simp only [Outcome.ret_bind, hh] at h; cases h
        | ub => rw [hr] at h; cases h
        | hang => rw [hr] at h; cases h

theorem formats_single : ∀ f ∈ formats, single none f = true := by decide +kernel

/-- What the callback of the importer gets. -/
theorem logMessage_eq {cb : Logger} {s : Status} {c f : List Char} {as : List (Val F)} {t : List Char} (h : sprintf C none f as = .ret t) (hl : t.length < 2147483648) :
    logMessage C true (some cb) s c f as = cb s c t := by
  have h0 : ¬ ((t.length : Int) < 0) := by omega
  have h2 : (t.length : Int) ≥ 0 := by omega
  simp [logMessage, vsnprintf, h, hl, h0, h2]

theorem cb_logMessage2_eq (b : Bool) (s : Status) (c t : List Char) :
    cb_logMessage2 C b s c t = match unescape t with | some u => .ret (if b then [⟨s, c, u.take 4095⟩] else []) | none => .ub := by
  rw [cb_logMessage2, vsnprintf, sprintf_unescape]
  cases unescape t <;> rfl

end Verif.Importer.Messages
