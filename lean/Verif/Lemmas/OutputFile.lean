import Verif.Spec.Csv
import Verif.Lemmas.NoUbRef
import Verif.Lemmas.ExitStatusME

/-!
# Reading variables fills the array of the importer, and what the lines of the output file are
-/

set_option linter.unusedSectionVars false

namespace Verif
open Importer.CoSim Importer.OutputFile

/-! ## The array -/

section
variable {F D α : Type} {ctx : Ctx F} {mv : MV F D} {p q : Ptr α} {n i : Nat}

/-- The array keeps its length. -/
def GetL (p : Ptr α) (r : MRes F D (Ptr α × Nat)) : Prop := r.All fun x => Ptr.SameLen p x.2.2.1

theorem GetL.fail {msg : String} : GetL p (failM ctx mv msg (p, i)) := by rintro _ ⟨⟩; rfl
theorem GetL.stub {t : VType} {p : Ptr (t.Val F)} {vr : Nat} : GetL p (getStub t ctx mv vr p n i) := by rintro _ ⟨⟩; rfl
theorem GetL.put {v : α} : GetL p (putScalar ctx mv p n i v) := by
  unfold putScalar assertNValues
  split
  · exact .fail
  · intro x e
    obtain ⟨q, e1, e2⟩ := Outcome.bind_eq_ret.1 e
    cases e2
    cases p with
    | none => cases e1
    | some l =>
      simp only [Ptr.write] at e1
      split at e1
      · cases e1; simp [Ptr.SameLen]
      · cases e1
theorem GetL.notNull {k : MRes F D (Ptr α × Nat)} (hk : GetL p k) : GetL p (assertNotNull ctx mv p (p, i) k) := by
  unfold assertNotNull
  split
  · exact .fail
  · exact hk
theorem GetL.bind {β : Type} {r : Outcome β} {k : β → MRes F D (Ptr α × Nat)} (hk : ∀ x, GetL p (k x)) : GetL p (r >>- k) := by
  intro x e
  obtain ⟨a, -, e2⟩ := Outcome.bind_eq_ret.1 e
  exact hk a x e2

/-- Prove `GetL` of an accessor. -/
macro "glen" : tactic =>
  `(tactic| repeat' (first
    | with_reducible exact GetL.stub
    | with_reducible exact GetL.fail
    | with_reducible exact GetL.put
    | with_reducible refine GetL.notNull ?_
    | split))

/-- Reading a variable does not change the length of the array. -/
def KeepsLength (m : Model F D) : Prop := ∀ t ctx mv r p n i, GetL p (m.get t ctx mv r p n i)

end

theorem BouncingBall.keepsLength {F : Type} [Arith F] : KeepsLength (BouncingBall.model : Model F _) := by
  intro t ctx mv r p n i
  cases t <;> simp only [model, getFloat64] <;> glen
theorem Dahlquist.keepsLength {F : Type} [Arith F] : KeepsLength (Dahlquist.model : Model F _) := by
  intro t ctx mv r p n i
  cases t <;> simp only [model, getFloat64] <;> glen
theorem VanDerPol.keepsLength {F : Type} [Arith F] : KeepsLength (VanDerPol.model : Model F _) := by
  intro t ctx mv r p n i
  cases t <;> simp only [model, getFloat64] <;> glen
theorem Stair.keepsLength {F : Type} [Arith F] : KeepsLength (Stair.model : Model F _) := by
  intro t ctx mv r p n i
  cases t <;> simp only [model, getFloat64, getInt32] <;> glen
theorem Resource.keepsLength {F : Type} [Arith F] {v : Bool} {fs : FileSystem} : KeepsLength (Resource.model v fs : Model F _) := by
  intro t ctx mv r p n i
  cases t <;> simp only [model, getFloat64, getInt32] <;>
    first
    | exact GetL.stub
    | (refine GetL.notNull (GetL.bind fun x => ?_); glen)

section
variable {F D : Type} {m : Model F D} (hm : KeepsLength m)

theorem call_all {α β : Type} {st : Status} {r : Res F D α} {stop : α → β} {k} {R : α → Prop} {Q : β → Prop} (hr : r.All fun x => R x.2.2)
    (hs : ∀ a, R a → Q (stop a)) (hk : ∀ c st a, R a → (k c st a).All fun x => Q x.2.2) : (call st r stop k).All fun x => Q x.2.2 := by
  intro x e
  obtain ⟨⟨c, s, a⟩, e1, e2⟩ := Outcome.bind_eq_ret.1 e
  have ha := hr _ e1
  simp only [] at e2 ha
  split at e2
  · cases e2; exact hs _ ha
  · cases e2; exact hs _ ha
  · cases e2; exact hs _ ha
  · exact hk _ _ _ ha _ e2

include hm

theorem getLoop_length {t : VType} {vr : Ptr Nat} {N : Nat} {p₀ : Ptr (t.Val F)} {n i : Nat} {c : Comp F D} {st : Status} {p : Ptr (t.Val F)} {index : Nat}
    (hp : Ptr.SameLen p₀ p) : (getLoop m t vr N n i c st p index).All fun x => Ptr.SameLen p₀ x.2.2.1 := by
  induction n generalizing i c st p index with
  | zero => rintro _ ⟨⟩; exact hp
  | succ n ih =>
    intro x e
    obtain ⟨r, -, e⟩ := Outcome.bind_eq_ret.1 e
    refine call_all (R := fun a : Ptr (t.Val F) × Nat => Ptr.SameLen p₀ a.1) (Q := fun a : Ptr (t.Val F) × Nat => Ptr.SameLen p₀ a.1) ?_ (fun _ h => h)
      (fun c st a h => ih h) x e
    intro y e
    obtain ⟨⟨mv', s, a⟩, e1, e2⟩ := Outcome.bind_eq_ret.1 e
    cases e2
    exact (hm _ _ _ _ _ _ _ _ e1 : Ptr.SameLen p a.1).trans hp

omit hm in
theorem refresh_length {β : Type} {st : Status} {c : Comp F D} {stop : β} {k} {Q : β → Prop} (hs : Q stop) (hk : ∀ c st, (k c st).All fun x => Q x.2.2) :
    (refresh m st c stop k).All fun x => Q x.2.2 := by
  unfold refresh
  split
  · exact call_all (R := fun _ => True) (fun _ _ => trivial) (fun _ _ => hs) (fun c st a _ => hk _ _)
  · exact hk _ _

theorem FMI2.getVariables_length {t : VType} {vr : Ptr Nat} {n : Nat} {p : Ptr (t.Val F)} {c : Comp F D} :
    (FMI2.getVariables m t vr n p c).All fun x => Ptr.SameLen p x.2.2 := by
  unfold FMI2.getVariables assertNonNull
  split
  · rintro _ ⟨⟩; rfl
  split
  · rintro _ ⟨⟩; rfl
  split
  · rintro _ ⟨⟩; rfl
  refine refresh_length rfl fun c st => ?_
  intro x e
  obtain ⟨y, e1, e2⟩ := Outcome.bind_eq_ret.1 e
  cases e2
  exact getLoop_length hm (p₀ := p) rfl y e1

theorem FMI3.getVars_length {t : VType} {vr : Ptr Nat} {n : Nat} {p : Ptr (t.Val F)} {N : Nat} {c : Comp F D} :
    (FMI3.getVars m t c vr n p N).All fun x => Ptr.SameLen p x.2.2 := by
  unfold FMI3.getVars FMI3.begin beginFunction
  split
  swap
  · rintro _ ⟨⟩; rfl
  split
  · rintro _ ⟨⟩; rfl
  unfold assertNonNull
  split
  · rintro _ ⟨⟩; rfl
  simp only []
  have key : ∀ c : Comp F D, (refresh m .OK c p fun c st =>
      getLoop m t vr N n 0 c st p 0 >>- fun (c, st, (values, index)) =>
      if st = .Discard ∨ st = .Error ∨ st = .Fatal then .ret (c, st, values)
      else if t ≠ .binary ∧ index ≠ N then FMI3.fail c "Expected nValues = %zu but was %zu." values
      else .ret (c, st, values)).All fun x => Ptr.SameLen p x.2.2 := by
    refine fun c => refresh_length rfl fun c st => ?_
    intro x e
    obtain ⟨⟨c', st', q, j⟩, e1, e2⟩ := Outcome.bind_eq_ret.1 e
    have := getLoop_length hm (p₀ := p) rfl _ e1
    simp only [] at e2
    split at e2
    · cases e2; exact this
    · split at e2
      · cases e2; exact this
      · cases e2; exact this
  split
  · split
    · rintro _ ⟨⟩; rfl
    · exact key c
  · exact key c

variable [Arith F] [HasInf F] {fuel : Nat}

theorem FMI2.getReal_length {w w' : World F D} {vr : Ptr Nat} {n : Nat} {l : List F} {s o} (e : step m fuel w (.getReal vr n (some l)) = .ret (w', s, o)) :
    ∃ l', o = .reals (some l') ∧ l'.length = l.length := by
  obtain ⟨⟨c, s1, q⟩, e1, e2⟩ := Outcome.bind_eq_ret.1 e
  cases e2
  have : Ptr.SameLen (some l) q := by
    revert e1
    unfold getReal begin beginFunction
    split
    · exact fun e1 => getVariables_length hm (t := .float64) _ e1
    · rintro ⟨⟩; rfl
  cases q with
  | none => simp [Ptr.SameLen] at this
  | some l' => exact ⟨l', rfl, by simpa [Ptr.SameLen] using this⟩

theorem FMI2.getInteger_length {w w' : World F D} {vr : Ptr Nat} {n : Nat} {l : List Int} {s o} (e : step m fuel w (.getInteger vr n (some l)) = .ret (w', s, o)) :
    ∃ l', o = .ints (some l') ∧ l'.length = l.length := by
  obtain ⟨⟨c, s1, q⟩, e1, e2⟩ := Outcome.bind_eq_ret.1 e
  cases e2
  have : Ptr.SameLen (some l) q := by
    revert e1
    unfold getInteger begin beginFunction
    split
    · exact fun e1 => getVariables_length hm (t := .int32) _ e1
    · rintro ⟨⟩; rfl
  cases q with
  | none => simp [Ptr.SameLen] at this
  | some l' => exact ⟨l', rfl, by simpa [Ptr.SameLen] using this⟩

theorem FMI3.get_length {t : VType} {w w' : World F D} {vr : Ptr Nat} {n : Nat} {l : List (t.Val F)} {N : Nat} {s o}
    (e : step m fuel w (.get t vr n (some l) N) = .ret (w', s, o)) : ∃ l', o = .values t (some l') ∧ l'.length = l.length := by
  obtain ⟨⟨c, s1, q⟩, e1, e2⟩ := Outcome.bind_eq_ret.1 e
  cases e2
  have : Ptr.SameLen (some l) q := getVars_length hm _ e1
  cases q with
  | none => simp [Ptr.SameLen] at this
  | some l' => exact ⟨l', rfl, by simpa [Ptr.SameLen] using this⟩

end

/-! ## The rows -/

section
variable {F W O V : Type} {call : W → O → Outcome (W × Status × V)} {rows : List (Row F V)} {w₀ w : W}

/-- Every row holds what the calls of `recordVariables` returned. -/
def FromCalls (call : W → O → Outcome (W × Status × V)) (record : List O) (rows : List (Row F V)) : Prop :=
  ∀ r ∈ rows, ∃ w w', AllOK call w record w' r.values

theorem Writes.fromCalls {record : List O} (h : Writes call record w₀ w rows) : FromCalls call record rows := by
  induction h with
  | start => intro r hr; cases hr
  | call _ _ ih => exact ih
  | record _ e ih =>
    intro r hr
    rcases List.mem_append.1 hr with hr | hr
    · exact ih r hr
    · rw [List.mem_singleton] at hr; subst hr; exact ⟨_, _, e⟩

variable [Arith F] {goes : W → F → W → Prop} {P : Program F O}

theorem Proceeds.fromCalls {k : Nat} (h : Proceeds call goes P w₀ k w rows) : FromCalls call P.record rows := by
  induction h with
  | zero => intro r hr; cases hr
  | succ _ hv _ ih =>
    intro r hr
    rcases List.mem_append.1 hr with hr | hr
    · exact ih r hr
    · rw [List.mem_singleton] at hr; subst hr
      obtain ⟨-, w1, us, ha, -⟩ := hv
      exact ⟨_, _, ha⟩

theorem Completed.fromCalls {ends : W → F → W → List (Row F V) → Prop} {terminate : O} (he : ∀ w t w' last, ends w t w' last → FromCalls call P.record last)
    (h : Completed call goes ends terminate P w₀ rows) : FromCalls call P.record rows := by
  cases h with
  | complete hp hv _ _ _ =>
    intro r hr
    rcases List.mem_append.1 hr with hr | hr
    · exact hp.fromCalls r hr
    · rw [List.mem_singleton] at hr; subst hr
      obtain ⟨-, w1, us, ha, -⟩ := hv
      exact ⟨_, _, ha⟩
  | ended hp hv _ hl _ =>
    intro r hr
    rcases List.mem_append.1 hr with hr | hr
    · exact hp.fromCalls r hr
    · rcases List.mem_cons.1 hr with rfl | hr
      · obtain ⟨-, w1, us, ha, -⟩ := hv
        exact ⟨_, _, ha⟩
      · exact he _ _ _ _ hl r hr

end

/-! ## The text -/

namespace Csv
variable {F V : Type} {g : Digits F}

theorem splitOn_eq {c : Char} : ∀ {a : List Char}, c ∉ a → splitOn c a = [a]
  | [], _ => rfl
  | x :: xs, h => by
    rw [List.mem_cons, not_or] at h
    simp only [splitOn, splitOn_eq h.2, if_neg (Ne.symm h.1)]

theorem splitOn_append {c : Char} {b : List Char} : ∀ {a : List Char}, c ∉ a → splitOn c (a ++ c :: b) = a :: splitOn c b
  | [], _ => by simp [splitOn]
  | x :: xs, h => by
    rw [List.mem_cons, not_or] at h
    simp only [List.cons_append, splitOn, splitOn_append h.2, if_neg (Ne.symm h.1)]

theorem decimal_number (i : Int) : decimal i = number i := by
  cases i with
  | ofNat n => simp [number, decimal, Int.repr, Nat.repr]
  | negSucc n => simp [number, decimal, Int.repr, Nat.repr, String.toList_append]

theorem decimal_plain (i : Int) : ',' ∉ decimal i ∧ '\n' ∉ decimal i := by
  have key : ∀ {n : Nat} {c : Char}, c.isDigit = false → c ∉ Nat.toDigits 10 n := by
    intro n c hc h
    rw [Nat.isDigit_of_mem_toDigits (by decide) (by decide) h] at hc
    cases hc
  cases i with
  | ofNat n => exact ⟨key (by decide), key (by decide)⟩
  | negSucc n =>
    simp only [decimal, List.mem_cons, not_or]
    exact ⟨⟨by decide, key (by decide)⟩, ⟨by decide, key (by decide)⟩⟩

theorem number_plain (i : Int) : ',' ∉ number i ∧ '\n' ∉ number i := decimal_number i ▸ decimal_plain i

/-- A line without its line break, which shows the cells. -/
def Line (text : List Char) (cells : List (List Char)) : Prop := ∃ t, text = t ++ ['\n'] ∧ '\n' ∉ t ∧ splitOn ',' t = cells

theorem Line.cons {a text : List Char} {cells} (h1 : ',' ∉ a) (h2 : '\n' ∉ a) (h : Line text cells) : Line (a ++ ',' :: text) (a :: cells) := by
  obtain ⟨t, rfl, h3, h4⟩ := h
  refine ⟨a ++ ',' :: t, by simp, ?_, by rw [splitOn_append h1, h4]⟩
  simp only [List.mem_append, List.mem_cons, not_or]
  exact ⟨h2, by decide, h3⟩

theorem Line.last {a : List Char} (h1 : ',' ∉ a) (h2 : '\n' ∉ a) : Line (a ++ ['\n']) [a] := ⟨a, rfl, h2, splitOn_eq h1⟩

/-- The file shows the first line and the rows. -/
theorem file_shows {header : List Char} {heads : List (List Char)} {line : Row F V → Outcome (List Char)} {cells : Row F V → List (List Char)} {rows : List (Row F V)}
    (hh : Line header heads) (hl : ∀ r ∈ rows, ∃ t, line r = .ret t ∧ Line t (cells r)) :
    ∃ text, outputFile header line rows = .ret text ∧ IsTable text (heads :: rows.map cells) := by
  have key : ∀ {rows : List (Row F V)}, (∀ r ∈ rows, ∃ t, line r = .ret t ∧ Line t (cells r)) → ∃ text, lines line rows = .ret text ∧ IsTable text (rows.map cells) := by
    intro rows
    induction rows with
    | nil => exact fun _ => ⟨[], rfl, [], rfl, rfl⟩
    | cons r rows ih =>
      intro h
      obtain ⟨t, e, t', rfl, h1, h2⟩ := h r (by simp)
      obtain ⟨text, e', ls, h3, h4⟩ := ih fun r hr => h r (by simp [hr])
      refine ⟨t' ++ ['\n'] ++ text, by simp only [lines, e, e', Outcome.ret_bind], t' :: ls, ?_, by simp [h2, h4]⟩
      rw [List.append_assoc]
      show splitOn '\n' (t' ++ '\n' :: text) = _
      rw [splitOn_append h1, h3]; rfl
  obtain ⟨text, e, ls, h3, h4⟩ := key hl
  obtain ⟨t, rfl, h1, h2⟩ := hh
  refine ⟨t ++ ['\n'] ++ text, by simp only [outputFile, e, Outcome.ret_bind], t :: ls, ?_, by simp [h2, h4]⟩
  rw [List.append_assoc]
  show splitOn '\n' (t ++ '\n' :: text) = _
  rw [splitOn_append h1, h3]; rfl

theorem fprintf_format1 {t x : F} : fprintf g none format1 [.real t, .real x] = .ret (g none t ++ ',' :: (g none x ++ ['\n'])) := rfl
theorem fprintf_format2 {t x y : F} : fprintf g none format2 [.real t, .real x, .real y] = .ret (g none t ++ ',' :: (g none x ++ ',' :: (g none y ++ ['\n']))) := rfl
theorem fprintf_formatInt {t : F} {i : Int} : fprintf g none formatInt [.real t, .int i] = .ret (g none t ++ ',' :: (number i ++ ['\n'])) := by rw [← decimal_number]; rfl

end Csv
end Verif
