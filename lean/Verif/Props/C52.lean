import Verif.Importer.Memory

/-!
# C52: `FMICalloc`, `FMIRealloc`, `FMIFree`

The statement is proved except for one clause: `FMICalloc` replaces the caller's pointer by NULL
when memory is exhausted (`C52_violated`).
-/

namespace Verif.Importer.Memory
open Verif

/-- The bytes a pointer variable points to; `none` if it is NULL. -/
def bytes (s : State) (v : Nat) : Option (List UInt8) := (s.var v).bind s.heap

/-- What a call must do: the status it returns and the state afterwards. `intact` says whether the
caller's pointer must be left alone when `FMICalloc` fails. -/
def Expected (intact : Bool) (s : State) (op : Op) (status : Option Status) (s' : State) : Prop :=
  match op with
  | .calloc none _ _ | .realloc none _ => status = some .Error ∧ s' = s
  | .calloc (some v) count size =>
    (∀ u, u ≠ v → s'.var u = s.var u ∧ bytes s' u = bytes s u) ∧
    if count * size = 0 then status = some .OK ∧ s'.var v = none
    else (status = some .OK ∧ bytes s' v = some (List.replicate (count * size) 0)) ∨
      (status = some .Error ∧
        if intact then s'.var v = s.var v ∧ bytes s' v = bytes s v else s'.var v = none)
  | .realloc (some v) size =>
    (∀ u, u ≠ v → s'.var u = s.var u ∧ bytes s' u = bytes s u) ∧
    if size = 0 then status = some .OK ∧ s'.var v = none ∧ ∀ a, s.var v = some a → s'.heap a = none
    else (status = some .OK ∧ ∃ l, bytes s' v = some l ∧ l.length = size ∧
        ∀ old, bytes s v = some old → ∀ i, i < old.length → i < size → l[i]? = old[i]?) ∨
      (status = some .Error ∧ s'.var v = s.var v ∧ bytes s' v = bytes s v)
  | .free v =>
    (∀ u, u ≠ v → s'.var u = s.var u ∧ bytes s' u = bytes s u) ∧
    status = none ∧ s'.var v = none ∧ ∀ a, s.var v = some a → s'.heap a = none

/-- Every pointer variable is NULL or owns a live block of its own. -/
structure Owned (s : State) : Prop where
  live : ∀ v a, s.var v = some a → s.heap a ≠ none
  distinct : ∀ u v a, s.var u = some a → s.var v = some a → u = v

theorem bytes_eq {s : State} {v a : Nat} (h : s.var v = some a) : bytes s v = s.heap a := by
  simp [bytes, h]

theorem bytes_congr {s s' : State} {u : Nat} (hv : s'.var u = s.var u)
    (hh : ∀ a, s.var u = some a → s'.heap a = s.heap a) : bytes s' u = bytes s u := by
  unfold bytes
  rw [hv]
  cases h : s.var u with
  | none => rfl
  | some a => simpa using hh a h

@[simp] theorem update_same {α} (f : Nat → α) (i : Nat) (x : α) : update f i x i = x := by
  simp [update]

theorem update_ne {α} (f : Nat → α) {i j : Nat} (x : α) (h : j ≠ i) : update f i x j = f j := by
  simp [update, h]

/-- Setting a variable to NULL, possibly after freeing its block. -/
theorem Owned.drop {s : State} (h : Owned s) (v : Nat) (heap : Heap) (calls : Nat)
    (hh : ∀ u a, u ≠ v → s.var u = some a → heap a = s.heap a) :
    Owned ⟨heap, update s.var v none, calls⟩ ∧
    ∀ u, u ≠ v → update s.var v none u = s.var u ∧
      bytes ⟨heap, update s.var v none, calls⟩ u = bytes s u := by
  have hne : ∀ u a, update s.var v none u = some a → u ≠ v ∧ s.var u = some a := by
    intro u a h
    by_cases hu : u = v
    · subst hu; simp at h
    · rw [update_ne _ _ hu] at h; exact ⟨hu, h⟩
  refine ⟨⟨?_, ?_⟩, ?_⟩
  · intro u a hu
    obtain ⟨h1, h2⟩ := hne u a hu
    simp only [hh u a h1 h2]
    exact h.live u a h2
  · intro u w a hu hw
    exact h.distinct u w a (hne u a hu).2 (hne w a hw).2
  · intro u hu
    have := update_ne s.var (none : Option Nat) hu
    exact ⟨this, bytes_congr this fun a ha => hh u a hu ha⟩

/-- Giving a variable a new block at `a`. -/
theorem Owned.give {s : State} (h : Owned s) (v a : Nat) (l : List UInt8) (heap : Heap)
    (calls : Nat) (hl : heap a = some l)
    (hh : ∀ u b, u ≠ v → s.var u = some b → heap b = s.heap b ∧ b ≠ a) :
    Owned ⟨heap, update s.var v (some a), calls⟩ ∧
    ∀ u, u ≠ v → update s.var v (some a) u = s.var u ∧
      bytes ⟨heap, update s.var v (some a), calls⟩ u = bytes s u := by
  refine ⟨⟨?_, ?_⟩, ?_⟩
  · intro u b hu
    by_cases huv : u = v
    · subst huv; simp at hu; subst hu; simp [hl]
    · rw [show (State.mk heap (update s.var v (some a)) calls).var u = s.var u from
        update_ne _ _ huv] at hu
      simp only [(hh u b huv hu).1]
      exact h.live u b hu
  · intro u w b hu hw
    simp only at hu hw
    by_cases huv : u = v <;> by_cases hwv : w = v
    · rw [huv, hwv]
    · subst huv; rw [update_same] at hu; rw [update_ne _ _ hwv] at hw
      exact absurd (by simpa using hu.symm) (hh w b hwv hw).2
    · subst hwv; rw [update_same] at hw; rw [update_ne _ _ huv] at hu
      exact absurd (by simpa using hw.symm) (hh u b huv hu).2
    · rw [update_ne _ _ huv] at hu; rw [update_ne _ _ hwv] at hw
      exact h.distinct u w b hu hw
  · intro u hu
    have := update_ne s.var (some a) hu
    exact ⟨this, bytes_congr this fun b hb => (hh u b hu hb).1⟩

/-- Every call returns, meets its specification and keeps the ownership invariant. -/
theorem step_ok (c : CLib) (s : State) (h : Owned s) (op : Op) :
    ∃ st s', step c s op = .ret (st, s') ∧ Expected false s op st s' ∧ Owned s' := by
  have hfree : ∀ v a, s.var v = some a → ∀ u b, u ≠ v → s.var u = some b →
      update s.heap a none b = s.heap b := by
    intro v a hv u b hu hb
    refine update_ne _ _ fun e => hu ?_
    subst e; exact h.distinct u v b hb hv
  cases op with
  | calloc m count size =>
    cases m with
    | none => exact ⟨_, s, rfl, ⟨rfl, rfl⟩, h⟩
    | some v =>
      by_cases hz : count = 0 ∨ size = 0
      · obtain ⟨h1, h2⟩ := h.drop v s.heap s.calls fun _ _ _ _ => rfl
        refine ⟨some .OK, { s with var := update s.var v none }, ?_, ⟨h2, ?_⟩, h1⟩
        · simp only [step, FMICalloc, if_pos hz, Outcome.ret_bind]
        · rw [if_pos (by rcases hz with h | h <;> simp [h])]
          exact ⟨rfl, update_same ..⟩
      · have hnz : ¬ count * size = 0 := by
          simp only [not_or] at hz
          exact Nat.mul_ne_zero hz.1 hz.2
        simp only [step, FMICalloc, if_neg hz, calloc]
        cases ha : c.alloc s.calls s.heap none (count * size) with
        | none =>
          obtain ⟨h1, h2⟩ := h.drop v s.heap (s.calls + 1) fun _ _ _ _ => rfl
          refine ⟨some .Error, _, by simp only [Outcome.ret_bind],
            ⟨h2, ?_⟩, h1⟩
          rw [if_neg hnz]
          exact Or.inr ⟨rfl, by simp⟩
        | some a =>
          have hf : s.heap a = none := by
            rcases c.fresh _ _ _ _ _ ha with h | h
            · exact h
            · cases h
          have hne : ∀ u b, u ≠ v → s.var u = some b →
              update s.heap a (some (List.replicate (count * size) 0)) b = s.heap b ∧ b ≠ a := by
            intro u b _ hb
            have : b ≠ a := fun e => h.live u b hb (e ▸ hf)
            exact ⟨update_ne _ _ this, this⟩
          obtain ⟨h1, h2⟩ := h.give v a _ _ (s.calls + 1) (update_same ..) hne
          refine ⟨some .OK, _, by simp only [Outcome.ret_bind], ⟨h2, ?_⟩, h1⟩
          rw [if_neg hnz]
          refine Or.inl ⟨rfl, ?_⟩
          rw [bytes_eq (a := a) (update_same ..)]
          exact update_same ..
  | realloc m size =>
    cases m with
    | none => exact ⟨_, s, rfl, ⟨rfl, rfl⟩, h⟩
    | some v =>
      by_cases hz : size = 0
      · simp only [step, FMIRealloc, if_pos hz]
        cases hv : s.var v with
        | none =>
          refine ⟨some .OK, s, by simp, ⟨fun _ _ => ⟨rfl, rfl⟩, ?_⟩, h⟩
          rw [if_pos hz]
          exact ⟨rfl, hv, fun a ha => by simp [hv] at ha⟩
        | some a =>
          obtain ⟨l, hl⟩ := Option.ne_none_iff_exists'.1 (h.live v a hv)
          obtain ⟨h1, h2⟩ := h.drop v (update s.heap a none) s.calls (hfree v a hv)
          refine ⟨some .OK, _, by simp [free, hl], ⟨h2, ?_⟩, h1⟩
          rw [if_pos hz]
          refine ⟨rfl, update_same .., fun b hb => ?_⟩
          rw [hv] at hb; cases hb
          exact update_same ..
      · simp only [step, FMIRealloc, if_neg hz]
        have errOk : ∀ k, Owned { s with calls := k } ∧
            Expected false s (.realloc (some v) size) (some .Error) { s with calls := k } := by
          intro k
          refine ⟨⟨h.live, h.distinct⟩, fun _ _ => ⟨rfl, rfl⟩, ?_⟩
          rw [if_neg hz]
          exact Or.inr ⟨rfl, rfl, rfl⟩
        cases hv : s.var v with
        | none =>
          simp only [realloc]
          cases ha : c.alloc s.calls s.heap none size with
          | none =>
            exact ⟨some .Error, _, by simp only [Outcome.ret_bind, if_true]; rfl,
              (errOk _).2, (errOk _).1⟩
          | some a =>
            have hf : s.heap a = none := by
              rcases c.fresh _ _ _ _ _ ha with h | h
              · exact h
              · cases h
            have hne : ∀ u b, u ≠ v → s.var u = some b → update s.heap a
                (some ((List.range size).map (c.fill s.calls))) b = s.heap b ∧ b ≠ a := by
              intro u b _ hb
              have : b ≠ a := fun e => h.live u b hb (e ▸ hf)
              exact ⟨update_ne _ _ this, this⟩
            obtain ⟨h1, h2⟩ := h.give v a _ _ (s.calls + 1) (update_same ..) hne
            refine ⟨some .OK, _, by simp only [Outcome.ret_bind]; rfl, ⟨h2, ?_⟩, h1⟩
            rw [if_neg hz]
            refine Or.inl ⟨rfl, (List.range size).map (c.fill s.calls), ?_, ?_, ?_⟩
            · rw [bytes_eq (a := a) (update_same ..)]
              exact update_same ..
            · simp
            · intro old ho; simp [bytes, hv] at ho
        | some b =>
          obtain ⟨l, hl⟩ := Option.ne_none_iff_exists'.1 (h.live v b hv)
          simp only [realloc, hl]
          cases ha : c.alloc s.calls s.heap (some b) size with
          | none =>
            exact ⟨some .Error, _, by simp only [Outcome.ret_bind, if_true]; rfl,
              (errOk _).2, (errOk _).1⟩
          | some a =>
            have hne : ∀ u d, u ≠ v → s.var u = some d →
                update (update s.heap b none) a (some (l.take size ++
                  (List.range (size - l.length)).map (c.fill s.calls))) d = s.heap d ∧ d ≠ a := by
              intro u d hu hd
              have hdb : d ≠ b := fun e => hu (h.distinct u v b (e ▸ hd) hv)
              have hda : d ≠ a := by
                rcases c.fresh _ _ _ _ _ ha with hf | hf
                · exact fun e => h.live u d hd (e ▸ hf)
                · cases hf; exact hdb
              exact ⟨by rw [update_ne _ _ hda, update_ne _ _ hdb], hda⟩
            obtain ⟨h1, h2⟩ := h.give v a _ _ (s.calls + 1) (update_same ..) hne
            refine ⟨some .OK, _, by simp only [Outcome.ret_bind]; rfl, ⟨h2, ?_⟩, h1⟩
            rw [if_neg hz]
            refine Or.inl ⟨rfl, l.take size ++ (List.range (size - l.length)).map (c.fill s.calls), ?_, ?_, ?_⟩
            · rw [bytes_eq (a := a) (update_same ..)]
              exact update_same ..
            · simp; omega
            · intro old ho i hi hs
              rw [bytes_eq hv, hl] at ho; cases ho
              rw [List.getElem?_append_left (by simp; omega), List.getElem?_take_of_lt hs]
  | free v =>
    simp only [step, FMIFree]
    cases hv : s.var v with
    | none =>
      refine ⟨none, s, by simp, ⟨fun _ _ => ⟨rfl, rfl⟩, rfl, hv, fun a ha => by simp [hv] at ha⟩, h⟩
    | some a =>
      obtain ⟨l, hl⟩ := Option.ne_none_iff_exists'.1 (h.live v a hv)
      obtain ⟨h1, h2⟩ := h.drop v (update s.heap a none) s.calls (hfree v a hv)
      refine ⟨none, _, by simp [free, hl], ⟨h2, rfl, update_same .., ?_⟩, h1⟩
      intro b hb
      rw [hv] at hb; cases hb
      exact update_same ..

theorem run_owned (c : CLib) : ∀ (ops : List Op) (s : State), Owned s →
    ∃ s', run c s ops = .ret s' ∧ Owned s' := by
  intro ops
  induction ops with
  | nil => intro s h; exact ⟨s, rfl, h⟩
  | cons op ops ih =>
    intro s h
    obtain ⟨st, s', e, _, h'⟩ := step_ok c s h op
    obtain ⟨s2, e2, h2⟩ := ih s' h'
    exact ⟨s2, by simp only [run, e, Outcome.ret_bind, e2], h2⟩

theorem initial_owned : Owned .initial :=
  ⟨fun v a h => by simp [State.initial] at h, fun u v a h => by simp [State.initial] at h⟩

/-- **C52, partial.** For every allocator, every pattern of failures and every history of calls
starting with NULL pointers: the history runs without undefined behaviour (no block is freed twice
or used after being freed), afterwards every pointer is NULL or points to a live block of its own,
and the next call does what is expected of it: OK and NULL for size zero, OK and memory of the
requested size (zeroed by `FMICalloc`, with the old contents by `FMIRealloc`), an error with the
pointer and its contents intact if `FMIRealloc` fails, and NULL after `FMIFree` (also when called
again). Missing: `FMICalloc` does not leave the pointer intact when it fails. -/
theorem C52_partial (c : CLib) (ops : List Op) (op : Op) :
    ∃ s, run c .initial ops = .ret s ∧
      (∀ v a, s.var v = some a → s.heap a ≠ none) ∧
      ∃ st s', step c s op = .ret (st, s') ∧ Expected (intact := false) s op st s' := by
  obtain ⟨s, e, h⟩ := run_owned c ops _ initial_owned
  obtain ⟨st, s', e', he, _⟩ := step_ok c s h op
  exact ⟨s, e, h.live, st, s', e', he⟩

/-- The expected behaviour tells `FMICalloc` from a function that does nothing. -/
example (s : State) (hs : s.var 0 ≠ none) : ¬ Expected false s (.calloc (some 0) 0 8) (some .OK) s := by
  intro h
  exact hs (by simpa using h.2.2)

/-- An allocator that succeeds once. -/
def once : CLib where
  alloc := fun k h _ _ => if k = 0 ∧ h 7 = none then some 7 else none
  fill := fun _ _ => 0
  fresh := by
    intro k h old n a e
    split at e
    · rename_i hc; cases e; exact Or.inl hc.2
    · cases e

/-- **C52 is violated** by `FMICalloc`: after a failed call the caller's pointer is NULL although
it pointed to a live block before, which can no longer be freed. -/
theorem C52_violated :
    ∃ s s', run once .initial [.calloc (some 0) 2 4] = .ret s ∧ s.var 0 = some 7 ∧
      step once s (.calloc (some 0) 1 1) = .ret (some .Error, s') ∧
      ¬ Expected (intact := true) s (.calloc (some 0) 1 1) (some .Error) s' ∧
      s'.var 0 = none ∧ s'.heap 7 ≠ none := by
  refine ⟨_, _, rfl, by simp [calloc, once, State.initial], rfl, ?_, ?_, ?_⟩
  · intro h
    have := h.2
    simp [once, State.initial, calloc, update] at this
  · simp [once, State.initial, calloc, update]
  · simp [once, State.initial, calloc, update]

end Verif.Importer.Memory
