import Verif.Spec.Lifecycle

/-!
# Lemmas: the resources of an importer instance
-/

namespace Verif.Importer.Lifecycle
open Verif Verif.Spec.Lifecycle

/-- Of the handles in use, those in `l` came after `base`. -/
structure Owns (p : Pool) (base : Nat → Bool) (l : List Nat) : Prop where
  live : ∀ a, p.live a = (base a || decide (a ∈ l))
  nodup : l.Nodup
  new : ∀ a ∈ l, base a = false
  bound : ∀ a, p.live a = true → a < p.next

namespace Owns
variable {p : Pool} {base : Nat → Bool} {l : List Nat}

theorem start (h : ∀ a, p.live a = true → a < p.next) : Owns p p.live [] :=
  ⟨by simp, List.nodup_nil, by simp, h⟩

theorem acquire (h : Owns p base l) : Owns p.acquire.2 base (p.acquire.1 :: l) := by
  have hn : p.live p.next = false := by
    cases hc : p.live p.next with
    | false => rfl
    | true => exact absurd (h.bound _ hc) (Nat.lt_irrefl _)
  have hn' := hn
  rw [h.live] at hn'
  simp only [Bool.or_eq_false_iff, decide_eq_false_iff_not] at hn'
  refine ⟨fun a => ?_, List.nodup_cons.2 ⟨hn'.2, h.nodup⟩, fun a ha => ?_, fun a ha => ?_⟩
  · simp only [Pool.acquire, h.live a, List.mem_cons, Bool.decide_or]
    cases base a <;> by_cases e : a = p.next <;> simp [e]
  · rcases List.mem_cons.1 ha with rfl | ha
    · exact hn'.1
    · exact h.new _ ha
  · simp only [Pool.acquire, Bool.or_eq_true, beq_iff_eq] at ha ⊢
    rcases ha with rfl | ha
    · exact Nat.lt_succ_self _
    · exact Nat.lt_succ_of_lt (h.bound _ ha)

theorem perm {l' : List Nat} (h : Owns p base l) (e : l.Perm l') : Owns p base l' :=
  ⟨fun a => by rw [h.live a]; simp [e.mem_iff], e.nodup_iff.1 h.nodup, fun a ha => h.new a (e.mem_iff.2 ha), h.bound⟩

theorem of_mem (h : Owns p base l) {a : Nat} (ha : a ∈ l) : p.live a = true := by
  rw [h.live]; simp [ha]

theorem release {a : Nat} (h : Owns p base (a :: l)) : ∃ p', p.release a = .ret p' ∧ Owns p' base l := by
  have hn := List.nodup_cons.1 h.nodup
  refine ⟨_, if_pos (h.of_mem List.mem_cons_self), fun b => ?_, hn.2, fun b hb => h.new b (List.mem_cons_of_mem _ hb),
    fun b hb => ?_⟩
  · simp only [h.live b, List.mem_cons]
    by_cases e : b = a
    · subst e
      simp [h.new _ List.mem_cons_self, hn.1]
    · simp [e]
  · simp only [Bool.and_eq_true] at hb
    exact h.bound b hb.2

theorem nil (h : Owns p base []) : p.live = base := by
  funext a; rw [h.live]; simp

end Owns

theorem free_owns {s : Sys} {base : Nat → Bool} {q : Option Nat} {l : List Nat}
    (h : Owns s.memory base (q.toList ++ l)) :
    ∃ m, free s q = .ret { s with memory := m } ∧ Owns m base l := by
  cases q with
  | none => exact ⟨s.memory, rfl, h⟩
  | some a =>
    obtain ⟨m, e, hm⟩ := Owns.release (l := l) h
    exact ⟨m, by simp only [free, e, Outcome.ret_bind], hm⟩

/-- The blocks of an importer instance, in the order in which they are freed. -/
def blocks (i : Inst) : List Nat :=
  i.buffer.toList ++ (i.name.toList ++ ((i.table2.map Prod.fst).toList ++ ((i.table3.map Prod.fst).toList ++ [i.block])))

/-- The library of an importer instance. -/
def opened (i : Inst) : List Nat := (i.library.map Prod.fst).toList

theorem FMIFreeInstance_owns {s : Sys} {i : Inst} {base lib : Nat → Bool}
    (h : Owns s.memory base (blocks i)) (h' : Owns s.libraries lib (opened i)) :
    ∃ s', FMIFreeInstance s i = .ret s' ∧ s'.memory.live = base ∧ s'.libraries.live = lib ∧
      s'.components = s.components := by
  obtain ⟨p, e0, hp⟩ : ∃ p, unload s (i.library.map Prod.fst) = .ret { s with libraries := p } ∧ p.live = lib := by
    unfold opened at h'
    cases hl : i.library.map Prod.fst with
    | none => rw [hl] at h'; exact ⟨s.libraries, rfl, h'.nil⟩
    | some a =>
      rw [hl] at h'
      obtain ⟨p, e, hp⟩ := Owns.release (l := []) h'
      exact ⟨p, by simp only [unload, e, Outcome.ret_bind], hp.nil⟩
  obtain ⟨m1, e1, h1⟩ := free_owns (s := { s with libraries := p }) h
  obtain ⟨m2, e2, h2⟩ := free_owns (s := { s with libraries := p, memory := m1 }) h1
  obtain ⟨m3, e3, h3⟩ := free_owns (s := { s with libraries := p, memory := m2 }) h2
  obtain ⟨m4, e4, h4⟩ := free_owns (s := { s with libraries := p, memory := m3 }) h3
  obtain ⟨m5, e5, h5⟩ := free_owns (s := { s with libraries := p, memory := m4 }) (q := some i.block) (l := []) h4
  refine ⟨{ s with libraries := p, memory := m5 }, ?_, h5.nil, hp, rfl⟩
  unfold FMIFreeInstance
  rw [e0, Outcome.ret_bind, e1, Outcome.ret_bind, e2, Outcome.ret_bind, e3, Outcome.ret_bind, e4, Outcome.ret_bind, e5]

/-- The functions that are loaded. -/
def names : Version → IType → List String
  | .fmi2, t => symbols2 t
  | .fmi3, _ => symbols3

/-- What is known in a phase. -/
def Known (env : Env) (i : Inst) : Phase → Prop
  | .created => i.table2 = none ∧ i.table3 = none ∧ i.library = none ∧ i.component = none
  | .loaded => i.table2 = none ∧ i.table3 = none ∧
      (∃ h e, i.library = some (h, e) ∧ ∃ k, env.dlopen k = some e) ∧ i.component = none
  | .instantiated v t => (∃ b, i.table v = some (b, names v t)) ∧ i.library.isSome ∧ i.component.isSome
  | _ => True

/-- The instances in FMUs that an importer instance holds. -/
def held (i : Inst) : Phase → List Nat
  | .instantiated _ _ => i.component.toList
  | _ => []

/-- Invariant of proper use. -/
structure Inv (env : Env) (s₀ : Sys) (l : Bool) (ph : Phase) (s : Sys) (i : Inst) : Prop where
  mem : Owns s.memory s₀.memory.live (blocks i)
  lib : Owns s.libraries s₀.libraries.live (opened i)
  comp : Owns s.components s₀.components.live (held i ph)
  message : i.logMessage = true
  log : i.logFunctionCall = l
  buffer : l = true → i.buffer.isSome = true ∧ i.name.isSome = true
  known : Known env i ph

section
variable {env : Env} {s₀ s : Sys} {l : Bool} {ph : Phase} {i : Inst}

theorem Inv.create (hv : Valid s₀) (hl : l = true → ∀ k, env.alloc k = true)
    (e : FMICreateInstance env s₀ true true l = .ret (some i, s)) : Inv env s₀ l .created s i := by
  have o1 := (Owns.start hv.1).acquire
  have o2 := o1.acquire
  have o3 := o2.acquire
  simp only [FMICreateInstance, calloc] at e
  cases a1 : env.alloc s₀.allocs <;> simp only [a1, if_true, Bool.false_eq_true, if_false] at e
  · cases e
  cases a2 : env.alloc (s₀.allocs + 1) <;> simp only [a2, if_true, Bool.false_eq_true, if_false] at e <;>
    cases a3 : env.alloc (s₀.allocs + 1 + 1) <;> simp only [a3, if_true, Bool.false_eq_true, if_false] at e <;>
    cases e <;>
    refine ⟨?_, Owns.start hv.2.1, Owns.start hv.2.2, rfl, rfl, fun h => ?_, rfl, rfl, rfl, rfl⟩
  · exact o1
  · exact absurd ((hl h _).symm.trans a3) (by decide)
  · exact o2
  · exact absurd ((hl h _).symm.trans a2) (by decide)
  · exact o2
  · exact absurd ((hl h _).symm.trans a3) (by decide)
  · exact o3.perm (List.Perm.swap _ _ _)
  · exact ⟨rfl, rfl⟩

/-- The importer instance can be freed. -/
theorem Inv.safe_free (h : Inv env s₀ l ph s i) :
    ∃ s', FMIFreeInstance s i = .ret s' ∧ SameResources s₀ s' ∧ (ph.free → SameComponents s₀ s') := by
  obtain ⟨s', e, hm, hl, hc⟩ := FMIFreeInstance_owns h.mem h.lib
  refine ⟨s', e, ⟨hm, hl⟩, fun hf => ?_⟩
  have := h.comp
  unfold SameComponents
  rw [hc]
  cases ph <;> first | exact hf.elim | exact this.nil

theorem Inv.alive (h : Inv env s₀ l ph s i) : s.memory.live i.block = true :=
  h.mem.of_mem (by simp [blocks])

theorem Inv.load (h : Inv env s₀ l .created s i) :
    Inv env s₀ l (Phase.created.next .load (FMILoadPlatformBinary env s i).2)
      (FMILoadPlatformBinary env s i).1.1 (FMILoadPlatformBinary env s i).1.2 := by
  obtain ⟨h2, h3, hl, hc⟩ := h.known
  unfold FMILoadPlatformBinary
  split
  · exact ⟨h.mem, by have := h.lib; simpa only [opened, hl] using this, h.comp, h.message, h.log, h.buffer, h2, h3, rfl, hc⟩
  · rename_i e he
    refine ⟨h.mem, ?_, h.comp, h.message, h.log, h.buffer, h2, h3, ⟨_, _, rfl, _, he⟩, hc⟩
    have := h.lib
    simp only [opened, hl] at this
    exact this.acquire

theorem logCall_ok (h : Inv env s₀ l ph s i) {t : Text} (ht : l = true → t ≠ .mismatch) : logCall s i t = .ret () := by
  unfold logCall
  rw [h.log]
  cases l with
  | false => rfl
  | true =>
    obtain ⟨b, hb⟩ := Option.isSome_iff_exists.1 (h.buffer rfl).1
    have := h.mem.of_mem (a := b) (by simp [blocks, hb])
    cases t with
    | literal => rfl
    | mismatch => exact absurd rfl (ht rfl)
    | buffer => simp only [if_true, hb, this]

/-- A loaded function of the instantiated FMU can be called. -/
theorem Inv.callable {v : Version} {t : IType} (h : Inv env s₀ l (.instantiated v t) s i) {f : String}
    (hf : f ∈ names v t) : callable s i v f = true := by
  obtain ⟨⟨b, hb⟩, hl, -⟩ := h.known
  obtain ⟨⟨a, e⟩, hl⟩ := Option.isSome_iff_exists.1 hl
  have h1 := h.lib.of_mem (a := a) (by simp [opened, hl])
  have h2 := h.mem.of_mem (a := b) (by
    cases v <;> simp only [Inst.table] at hb <;> simp [blocks, hb])
  simp only [Lifecycle.callable, hb, hl, h1, h2, hf, decide_true, Bool.and_self]

/-- A call of a loaded function. -/
theorem Inv.call {v : Version} {t : IType} (h : Inv env s₀ l (.instantiated v t) s i) {f : String}
    (hf : f ∈ names v t) (ht : l = true → text v f ≠ .mismatch) :
    ∃ s' i', Lifecycle.call env s i v f = .ret ((s', i'), if inquiry f then .OK else env.status s.calls) ∧
      Inv env s₀ l (.instantiated v t) s' i' ∧ s'.calls = (if inquiry f then s.calls else s.calls + 1) := by
  obtain ⟨hb, hl, hc⟩ := h.known
  obtain ⟨c, hc'⟩ := Option.isSome_iff_exists.1 hc
  have h1 := h.comp.of_mem (a := c) (by simp [held, hc'])
  unfold Lifecycle.call
  rw [if_pos (h.callable hf)]
  cases hi : inquiry f with
  | true =>
    simp only [if_true, logCall_ok h ht, Outcome.ret_bind]
    exact ⟨s, i, rfl, h, rfl⟩
  | false =>
    simp only [Bool.false_eq_true, if_false, hc', h1, if_true]
    have h' : Inv env s₀ l (.instantiated v t) { s with calls := s.calls + 1 } i :=
      ⟨h.mem, h.lib, h.comp, h.message, h.log, h.buffer, h.known⟩
    rw [logCall_ok h' ht, Outcome.ret_bind]
    refine ⟨_, _, rfl, ?_, rfl⟩
    split
    · refine ⟨h.mem, h.lib, ?_, h.message, h.log, h.buffer, ?_, hl, rfl⟩
      · have := h.comp
        simpa only [held, hc'] using this
      · cases v <;> exact hb
    · exact h'

/-- The instance in the FMU is freed. -/
theorem Inv.destroy {v : Version} {t : IType} (h : Inv env s₀ l (.instantiated v t) s i) :
    ∃ s' i', FMIXFreeInstance s i v = .ret ((s', i'), .OK) ∧ Inv env s₀ l .released s' i' := by
  have hf : "FreeInstance" ∈ names v t := by cases v <;> cases t <;> decide +kernel
  obtain ⟨hb, hl, hc⟩ := h.known
  obtain ⟨c, hc⟩ := Option.isSome_iff_exists.1 hc
  have hh := h.comp
  simp only [held, hc] at hh
  obtain ⟨p, e, hp⟩ := Owns.release (l := []) hh
  unfold FMIXFreeInstance
  rw [if_pos (h.callable hf), hc]
  simp only [Lifecycle.destroy, e, Outcome.ret_bind]
  refine ⟨_, _, rfl, ?_⟩
  cases v
  · exact ⟨h.mem, h.lib, hp, h.message, h.log, h.buffer, trivial⟩
  · exact ⟨h.mem, h.lib, hp, h.message, h.log, h.buffer, trivial⟩

omit env s₀ s ph i in
theorem takeWhile_self {p : String → Bool} : ∀ (l : List String), (∀ f ∈ l, p f = true) → l.takeWhile p = l
  | [], _ => rfl
  | f :: l, h => by
    rw [List.takeWhile_cons_of_pos (h f List.mem_cons_self),
      takeWhile_self l fun g hg => h g (List.mem_cons_of_mem _ hg)]

/-- The functions of the library are looked up. -/
theorem loadSymbols_ok {v : Version} {a : Nat} {exports : String → Bool} {l : List String}
    (hl : i.library = some (a, exports)) (ha : s.libraries.live a = true) (hm : i.logMessage = true) :
    ∃ fs st, loadSymbols v s i l = .ret (fs, st) ∧ (st = .OK ∧ fs = l ∨ st = .Fatal) ∧
      ((∀ f ∈ l, exports (v.pre ++ f) = true) → st = .OK) := by
  unfold loadSymbols
  simp only [hl, ha, if_true, hm]
  split
  · rename_i e
    exact ⟨_, _, rfl, .inl ⟨rfl, (List.takeWhile_prefix _).eq_of_length e⟩, fun _ => rfl⟩
  · rename_i e
    refine ⟨_, _, rfl, .inr rfl, fun h => absurd ?_ e⟩
    rw [takeWhile_self _ h]

theorem logInstantiate_ok (h : Inv env s₀ l ph s i) : logInstantiate s i = .ret () := by
  unfold logInstantiate
  rw [if_neg, logCall_ok h (fun _ => by decide)]
  rw [h.log]
  cases l with
  | false => simp
  | true =>
    have := (h.buffer rfl).2
    cases hn : i.name <;> simp_all

theorem names_subset (v : Version) (t : IType) : ∀ f ∈ names v t, f ∈ constructors v ++ functions v t := by
  cases v <;> cases t <;> decide +kernel

/-- The FMU refused to create an instance. -/
def Refused (i : Inst) (v : Version) (t : IType) (st : Status) : Prop :=
  st = .Error ∧ i.component = none ∧ (∃ b, i.table v = some (b, names v t)) ∧ i.library.isSome

/-- The FMU creates an instance or refuses, and the call is logged. -/
theorem Inv.made {v : Version} {t : IType} (h : Inv env s₀ l .failed s i)
    (hl : i.library.isSome) (hb : ∃ b, i.table v = some (b, names v t)) {c : Option Nat} {s' : Sys}
    (e : Lifecycle.create env s = (c, s')) :
    logInstantiate s' { i with component := c } = .ret () ∧
      Inv env s₀ l (if c.isSome then .instantiated v t else .failed) s' { i with component := c } := by
  have : Inv env s₀ l (if c.isSome then .instantiated v t else .failed) s' { i with component := c } := by
    unfold Lifecycle.create at e
    split at e <;> cases e
    · refine ⟨h.mem, h.lib, h.comp.acquire, h.message, h.log, h.buffer, ?_, hl, rfl⟩
      cases v <;> exact hb
    · exact ⟨h.mem, h.lib, h.comp, h.message, h.log, h.buffer, trivial⟩
  exact ⟨logInstantiate_ok this, this⟩

theorem blocks_table2 (b : Nat) (fs : List String) (h : i.table2 = none) :
    (b :: blocks i).Perm (blocks { i with table2 := some (b, fs) }) := by
  simp only [blocks, h, Option.map, Option.toList, List.nil_append, List.cons_append]
  refine (List.Perm.symm ?_)
  refine (List.Perm.append_left _ List.perm_middle).trans List.perm_middle

theorem blocks_table3 (b : Nat) (fs : List String) (h2 : i.table2 = none) (h : i.table3 = none) :
    (b :: blocks i).Perm (blocks { i with table3 := some (b, fs) }) := by
  simp only [blocks, h, h2, Option.map, Option.toList, List.nil_append, List.cons_append]
  refine (List.Perm.symm ?_)
  refine (List.Perm.append_left _ List.perm_middle).trans List.perm_middle

/-- `FMI2Instantiate` after loading. -/
theorem Inv.instantiate2 (h : Inv env s₀ l .loaded s i) (t : IType) :
    ∃ s' i' st, FMI2Instantiate env s i t = .ret ((s', i'), st) ∧
      Inv env s₀ l (Phase.loaded.next (.instantiate .fmi2 t) st) s' i' ∧
      (Complete env .fmi2 t → (∀ k, env.alloc k = true) → st = .OK ∨ Refused i' .fmi2 t st) := by
  obtain ⟨h2, h3, ⟨a, e, hl, k, hk⟩, hc⟩ := h.known
  have ha := h.lib.of_mem (a := a) (by simp [opened, hl])
  unfold FMI2Instantiate calloc
  cases hal : env.alloc s.allocs with
  | false =>
    refine ⟨_, _, _, rfl, ⟨?_, h.lib, h.comp, h.message, h.log, h.buffer, trivial⟩,
      fun _ ha => absurd ((ha _).symm.trans hal) (by decide)⟩
    have := h.mem
    simpa only [blocks, h2] using this
  | true =>
    obtain ⟨fs, st, e2, hst, hok⟩ := loadSymbols_ok (v := .fmi2) (l := symbols2 t)
      (s := { s with memory := s.memory.acquire.2, allocs := s.allocs + 1 }) hl ha h.message
    simp only [if_true, e2, Outcome.ret_bind]
    have h' : Inv env s₀ l .failed { s with memory := s.memory.acquire.2, allocs := s.allocs + 1 }
        { i with table2 := some (s.memory.acquire.1, fs) } :=
      ⟨h.mem.acquire.perm (blocks_table2 _ _ h2), h.lib, h.comp, h.message, h.log, h.buffer, trivial⟩
    rcases hst with ⟨rfl, rfl⟩ | rfl
    · simp only [ne_eq, not_true, if_false]
      rcases hcr : Lifecycle.create env { s with memory := s.memory.acquire.2, allocs := s.allocs + 1 } with ⟨c, s'⟩
      obtain ⟨e3, h3⟩ := h'.made (v := .fmi2) (t := t) (by simp [hl]) ⟨_, rfl⟩ hcr
      simp only [e3, Outcome.ret_bind]
      refine ⟨_, _, _, rfl, ?_⟩
      cases c
      · exact ⟨h3, fun _ _ => .inr ⟨rfl, rfl, ⟨_, rfl⟩, by simp [hl]⟩⟩
      · exact ⟨h3, fun _ _ => .inl rfl⟩
    · exact ⟨_, _, _, rfl, h', fun hC _ => .inl (hok fun f hf => hC k e hk f (names_subset .fmi2 t f hf))⟩

/-- `loadSymbols3` after loading. -/
theorem Inv.symbols3 (h : Inv env s₀ l .loaded s i) :
    ∃ s' i' st, loadSymbols3 env s i = .ret ((s', i'), st) ∧ Inv env s₀ l .failed s' i' ∧
      i'.library.isSome ∧ (st = .OK → ∃ b, i'.table3 = some (b, Lifecycle.symbols3)) ∧
      ((∃ t, Complete env .fmi3 t) → (∀ k, env.alloc k = true) → st = .OK) := by
  obtain ⟨h2, h3, ⟨a, e, hl, k, hk⟩, hc⟩ := h.known
  have ha := h.lib.of_mem (a := a) (by simp [opened, hl])
  unfold loadSymbols3 calloc
  cases hal : env.alloc s.allocs with
  | false =>
    refine ⟨_, _, _, rfl, ⟨?_, h.lib, h.comp, h.message, h.log, h.buffer, trivial⟩, by simp [hl], (nomatch ·),
      fun _ ha => absurd ((ha _).symm.trans hal) (by decide)⟩
    have := h.mem
    simpa only [blocks, h3] using this
  | true =>
    obtain ⟨fs, st, e2, hst, hok⟩ := loadSymbols_ok (v := .fmi3) (l := Lifecycle.symbols3)
      (s := { s with memory := s.memory.acquire.2, allocs := s.allocs + 1 }) hl ha h.message
    simp only [if_true, e2, Outcome.ret_bind]
    refine ⟨_, _, _, rfl, ⟨h.mem.acquire.perm (blocks_table3 _ _ h2 h3), h.lib, h.comp, h.message, h.log, h.buffer, trivial⟩,
      by simp [hl], ?_, fun ⟨t, hC⟩ _ => hok fun f hf => hC k e hk f (names_subset .fmi3 t f hf)⟩
    rcases hst with ⟨rfl, rfl⟩ | rfl
    · exact fun _ => ⟨_, rfl⟩
    · exact (nomatch ·)

/-- The call of `fmi3Instantiate*`. -/
theorem Inv.instantiate3 (h : Inv env s₀ l .failed s i) (hl : i.library.isSome)
    (hb : ∃ b, i.table3 = some (b, Lifecycle.symbols3)) {f : String} (hf : f ∈ Lifecycle.symbols3) (t : IType) :
    ∃ s' i' c, Lifecycle.instantiate3 env s i f = .ret ((s', i'), c) ∧
      Inv env s₀ l (if c then .instantiated .fmi3 t else .failed) s' i' ∧
      (c = false → Refused i' .fmi3 t .Error) := by
  obtain ⟨b, hb⟩ := hb
  unfold Lifecycle.instantiate3
  simp only [hb, hf, if_true]
  rcases hcr : Lifecycle.create env s with ⟨c, s'⟩
  obtain ⟨e3, h3⟩ := h.made (v := .fmi3) (t := t) hl ⟨_, hb⟩ hcr
  rw [hb] at e3 h3
  simp only [e3, Outcome.ret_bind]
  refine ⟨_, _, _, rfl, h3, fun hc => ⟨rfl, ?_, ⟨_, rfl⟩, hl⟩⟩
  cases c
  · rfl
  · cases hc

/-- Instantiation after loading. -/
theorem Inv.instantiate (h : Inv env s₀ l .loaded s i) (v : Version) (t : IType)
    (hme : v = .fmi3 → t = .modelExchange → Complete env v t ∧ ∀ k, env.alloc k = true) :
    ∃ s' i' st, Lifecycle.instantiate env s i v t = .ret ((s', i'), st) ∧
      Inv env s₀ l (Phase.loaded.next (.instantiate v t) st) s' i' ∧
      (Complete env v t → (∀ k, env.alloc k = true) → st = .OK ∨ Refused i' v t st) := by
  cases v with
  | fmi2 => exact h.instantiate2 t
  | fmi3 =>
    obtain ⟨s1, i1, st, e1, h1, hl, hb, hok⟩ := h.symbols3
    cases t with
    | modelExchange =>
      obtain ⟨hC, ha⟩ := hme rfl rfl
      obtain rfl := hok ⟨_, hC⟩ ha
      obtain ⟨s2, i2, c, e2, h2, hr⟩ := h1.instantiate3 hl (hb rfl) (f := "InstantiateModelExchange")
        (by decide +kernel) .modelExchange
      simp only [Lifecycle.instantiate, FMI3InstantiateModelExchange, e1, e2, Outcome.ret_bind]
      refine ⟨_, _, _, rfl, ?_⟩
      cases c
      · exact ⟨h2, fun _ _ => .inr (hr rfl)⟩
      · exact ⟨h2, fun _ _ => .inl rfl⟩
    | coSimulation =>
      simp only [Lifecycle.instantiate, FMI3InstantiateCoSimulation, e1, Outcome.ret_bind]
      by_cases hs : st = .OK
      · subst hs
        obtain ⟨s2, i2, c, e2, h2, hr⟩ := h1.instantiate3 hl (hb rfl) (f := "InstantiateCoSimulation")
          (by decide +kernel) .coSimulation
        simp only [ne_eq, not_true, if_false, e2, Outcome.ret_bind]
        refine ⟨_, _, _, rfl, ?_⟩
        cases c
        · exact ⟨h2, fun _ _ => .inr (hr rfl)⟩
        · exact ⟨h2, fun _ _ => .inl rfl⟩
      · rw [if_pos hs]
        exact ⟨_, _, _, rfl, h1, fun hC ha => absurd (hok ⟨_, hC⟩ ha) hs⟩
    | scheduledExecution =>
      simp only [Lifecycle.instantiate, FMI3InstantiateScheduledExecution, e1, Outcome.ret_bind]
      by_cases hs : st = .OK
      · subst hs
        obtain ⟨s2, i2, c, e2, h2, hr⟩ := h1.instantiate3 hl (hb rfl) (f := "InstantiateScheduledExecution")
          (by decide +kernel) .scheduledExecution
        simp only [ne_eq, not_true, if_false, e2, Outcome.ret_bind]
        refine ⟨_, _, _, rfl, ?_⟩
        cases c
        · exact ⟨h2, fun _ _ => .inr (hr rfl)⟩
        · exact ⟨h2, fun _ _ => .inl rfl⟩
      · rw [if_pos hs]
        exact ⟨_, _, _, rfl, h1, fun hC ha => absurd (hok ⟨_, hC⟩ ha) hs⟩

/-- Calls of loaded functions. -/
theorem Inv.calls {v : Version} {t : IType} : ∀ (fs : List String) (s : Sys) (i : Inst),
    Inv env s₀ l (.instantiated v t) s i → (∀ f ∈ fs, f ∈ names v t ∧ (l = true → text v f ≠ .mismatch)) →
    ∃ s' i' st, Lifecycle.calls env v s i fs = .ret ((s', i'), st) ∧ Inv env s₀ l (.instantiated v t) s' i'
  | [], s, i, h, _ => ⟨s, i, .OK, rfl, h⟩
  | f :: fs, s, i, h, hf => by
    obtain ⟨h1, h2⟩ := hf f List.mem_cons_self
    obtain ⟨s', i', e, h', -⟩ := h.call h1 h2
    unfold Lifecycle.calls
    rw [e, Outcome.ret_bind]
    simp only []
    split
    · split
      · exact Inv.calls fs s' i' h' fun g hg => hf g (List.mem_cons_of_mem _ hg)
      · exact ⟨s', i', _, rfl, h'⟩
    · split
      · exact Inv.calls fs s' i' h' fun g hg => hf g (List.mem_cons_of_mem _ hg)
      · exact ⟨s', i', _, rfl, h'⟩

/-- The end of `tearDown` with an instance. -/
theorem Inv.release {v : Version} {t : IType} (h : Inv env s₀ l (.instantiated v t) s i) (st : Status) :
    ∃ s', Lifecycle.release s i v st = .ret (s', st) ∧ SameResources s₀ s' ∧
      (st.rank < Status.Fatal.rank → SameComponents s₀ s') := by
  unfold Lifecycle.release
  by_cases hs : st.rank < Status.Fatal.rank
  · obtain ⟨s1, i1, e1, h1⟩ := h.destroy
    obtain ⟨s2, e2, hr, hc⟩ := h1.safe_free
    rw [if_pos hs, e1]
    simp only [Outcome.ret_bind, e2]
    exact ⟨s2, rfl, hr, fun _ => hc trivial⟩
  · obtain ⟨s2, e2, hr, -⟩ := h.safe_free
    rw [if_neg hs]
    simp only [Outcome.ret_bind, e2]
    exact ⟨s2, rfl, hr, fun hc => absurd hc hs⟩

theorem terminate_text (v : Version) : text v "Terminate" ≠ .mismatch := by
  cases v <;> decide +kernel

theorem terminate_mem (v : Version) (t : IType) : "Terminate" ∈ names v t := by
  cases v <;> cases t <;> decide +kernel

/-- `tearDown` with an instance. -/
theorem Inv.tearDown {v : Version} {t : IType} (h : Inv env s₀ l (.instantiated v t) s i) (st : Status) :
    ∃ s' st', Lifecycle.tearDown env s (some i) v st = .ret (s', st') ∧ SameResources s₀ s' ∧
      (st'.rank < Status.Fatal.rank → SameComponents s₀ s') := by
  unfold Lifecycle.tearDown
  simp only []
  by_cases hs : st.rank < Status.Error.rank
  · obtain ⟨s1, i1, e1, h1, -⟩ := h.call (terminate_mem v t) fun _ => terminate_text v
    rw [if_pos hs, e1, Outcome.ret_bind]
    obtain ⟨s2, e2, h2⟩ := h1.release (worse (if inquiry "Terminate" = true then Status.OK else env.status s.calls) st)
    exact ⟨s2, _, e2, h2⟩
  · rw [if_neg hs]
    obtain ⟨s2, e2, h2⟩ := h.release st
    exact ⟨s2, _, e2, h2⟩

/-- `tearDown` after the FMU has refused to create an instance. -/
theorem Inv.tearDown_refused {v : Version} {t : IType} {st : Status} (h : Inv env s₀ l .failed s i)
    (hr : Refused i v t st) :
    ∃ s', Lifecycle.tearDown env s (some i) v st = .ret (s', .Error) ∧ SameResources s₀ s' ∧ SameComponents s₀ s' := by
  obtain ⟨rfl, hc, ⟨b, hb⟩, hl⟩ := hr
  have hf : "FreeInstance" ∈ names v t := by cases v <;> cases t <;> decide +kernel
  obtain ⟨⟨a, e⟩, hl⟩ := Option.isSome_iff_exists.1 hl
  have h1 := h.lib.of_mem (a := a) (by simp [opened, hl])
  have h2 := h.mem.of_mem (a := b) (by
    cases v <;> simp only [Inst.table] at hb <;> simp [blocks, hb])
  have hcall : Lifecycle.callable s i v "FreeInstance" = true := by
    simp only [Lifecycle.callable, hb, hl, h1, h2, hf, decide_true, Bool.and_self]
  obtain ⟨i2, e3, h'⟩ : ∃ i2, FMIXFreeInstance s i v = .ret ((s, i2), .OK) ∧ Inv env s₀ l .failed s i2 := by
    unfold FMIXFreeInstance
    rw [if_pos hcall, hc]
    refine ⟨_, rfl, ?_⟩
    cases v
    · exact h
    · exact ⟨h.mem, h.lib, h.comp, h.message, h.log, h.buffer, trivial⟩
  obtain ⟨s2, e2, hr, hc2⟩ := h'.safe_free
  refine ⟨s2, ?_, hr, hc2 trivial⟩
  show Lifecycle.release s i v .Error = _
  unfold Lifecycle.release
  rw [if_pos (by decide), e3, Outcome.ret_bind, Outcome.ret_bind]
  simp only [e2, Outcome.ret_bind]

end

end Verif.Importer.Lifecycle
