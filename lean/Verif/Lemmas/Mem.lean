import Verif.Spec.Mem
import Verif.Lemmas.Hist2
import Verif.Lemmas.Hist3

/-! Lemmas for C75: who owns the blocks. -/

set_option linter.unusedSectionVars false

namespace Verif
namespace Mem
variable {F D : Type}

/-- What a block is used for. -/
inductive Role
  | inst (i : Nat) | name (i : Nat) | path (i : Nat) | slot (j : Nat)
  deriving DecidableEq

/-- The resource location of an instance. -/
def Located (s : State F D) (role : Nat → Option Role) (i : Nat) (c : Comp F D) : Option Nat → Prop
  | none => c.ctx.resourceLocation = none
  | some r => role r = some (.path i) ∧ ∃ l, s.heap r = some (.path l) ∧ c.ctx.resourceLocation = some l

/-- Every pointer of the importer is valid, every block has exactly one owner. -/
structure Inv (s : State F D) (role : Nat → Option Role) : Prop where
  live : ∀ a, s.heap a = none ↔ role a = none
  inst : ∀ i a, s.inst i = some a → role a = some (.inst i) ∧ ∃ c n r, s.heap a = some (.record c (some n) r) ∧
    s.heap n = some (.name c.instanceName) ∧ role n = some (.name i) ∧ Located s role i c r
  slot : ∀ j p, s.slot j = some p → role p = some (.slot j) ∧ ∃ c n r, s.heap p = some (.record c n r)
  ofInst : ∀ a i, role a = some (.inst i) → s.inst i = some a
  ofSlot : ∀ p j, role p = some (.slot j) → s.slot j = some p
  ofName : ∀ b i, role b = some (.name i) → ∃ a c r, s.inst i = some a ∧ s.heap a = some (.record c (some b) r)
  ofPath : ∀ b i, role b = some (.path i) → ∃ a c n, s.inst i = some a ∧ s.heap a = some (.record c n (some b))
  few : Few s.live

theorem few_upd {s s' : State F D} (l : List Nat) (h : Few s.live) (hh : ∀ b, b ∉ l → s.heap b = none → s'.heap b = none) : Few s'.live := by
  obtain ⟨n, hn⟩ := h
  refine ⟨l.foldr (fun a m => max (a + 1) m) n, fun a ha => ?_⟩
  have key : ∀ l : List Nat, l.foldr (fun a m => max (a + 1) m) n ≤ a → n ≤ a ∧ a ∉ l := by
    intro l
    induction l with
    | nil => intro h; exact ⟨h, by simp⟩
    | cons b l ih =>
      intro h
      simp only [List.foldr_cons] at h
      have := ih (by omega)
      refine ⟨this.1, ?_⟩
      simp only [List.mem_cons, not_or]
      exact ⟨by omega, this.2⟩
  obtain ⟨h1, h2⟩ := key l ha
  have := hn a h1
  simp only [State.live, Option.isSome_eq_false_iff, Option.isNone_iff_eq_none] at this ⊢
  exact hh a h2 this

theorem Inv.initial (bufs : Nat → Option (Buffer F D)) : Inv (State.initial bufs) (fun _ => none) := by
  constructor <;> simp [State.initial]
  exact ⟨0, fun _ _ => rfl⟩

/-- Nothing is left when the importer has freed everything. -/
theorem Inv.empty {s : State F D} {role} (h : Inv s role) (hr : s.Released) : s.Empty := by
  intro a
  rw [h.live]
  cases e : role a with
  | none => rfl
  | some x =>
    cases x with
    | inst i => have := h.ofInst a i e; simp [hr.1] at this
    | slot j => have := h.ofSlot a j e; simp [hr.2] at this
    | name i => obtain ⟨b, c, r, h1, -⟩ := h.ofName a i e; simp [hr.1] at h1
    | path i => obtain ⟨b, c, r, h1, -⟩ := h.ofPath a i e; simp [hr.1] at h1

theorem Inv.calls {s : State F D} {role} (h : Inv s role) (k : Nat) : Inv { s with calls := k } role :=
  ⟨h.live, fun i a e => by
    obtain ⟨h1, c, n, r, h2, h3, h4, h5⟩ := h.inst i a e
    exact ⟨h1, c, n, r, h2, h3, h4, by cases r <;> exact h5⟩, h.slot, h.ofInst, h.ofSlot, h.ofName, h.ofPath, h.few⟩

theorem Inv.bufs {s : State F D} {role} (h : Inv s role) (b) : Inv { s with bufs := b } role :=
  ⟨h.live, fun i a e => by
    obtain ⟨h1, c, n, r, h2, h3, h4, h5⟩ := h.inst i a e
    exact ⟨h1, c, n, r, h2, h3, h4, by cases r <;> exact h5⟩, h.slot, h.ofInst, h.ofSlot, h.ofName, h.ofPath, h.few⟩

/-- The contents of an instance change. -/
theorem Inv.write {s : State F D} {role} (h : Inv s role) {i a : Nat} {c c' : Comp F D} {n r} (ha : s.inst i = some a)
    (hb : s.heap a = some (.record c n r)) (h1 : c'.instanceName = c.instanceName)
    (h2 : c'.ctx.resourceLocation = c.ctx.resourceLocation) : Inv { s with heap := upd s.heap a (some (.record c' n r)) } role := by
  have hi := h.inst i a ha
  obtain ⟨hl, hin, hsl, o1, o2, o3, o4, hf⟩ := h
  constructor
  · intro b; simp only [upd]; have := hl a; have := hl b; grind
  · intro k b e
    obtain ⟨g1, d, n', r', g2, g3, g4, g5⟩ := hin k b e
    refine ⟨g1, ?_⟩
    simp only [upd]
    by_cases hba : b = a
    · subst hba
      have : k = i := by grind
      subst this
      rw [hb] at g2; cases g2
      refine ⟨c', n', r, by simp, ?_, g4, ?_⟩
      · have : n' ≠ b := by grind
        simp [this, g3, h1]
      · cases r with
        | none => simpa [Located, h2] using g5
        | some q =>
          obtain ⟨k1, l, k2, k3⟩ := g5
          have : q ≠ b := by grind
          exact ⟨k1, l, by simpa [upd, this] using k2, h2 ▸ k3⟩
    · refine ⟨d, n', r', by simpa [hba] using g2, ?_, g4, ?_⟩
      · have : n' ≠ a := by grind
        simpa [this] using g3
      · cases r' with
        | none => exact g5
        | some q =>
          obtain ⟨k1, l, k2, k3⟩ := g5
          have : q ≠ a := by grind
          exact ⟨k1, l, by simpa [upd, this] using k2, k3⟩
  · intro j p e
    obtain ⟨g1, d, n', r', g2⟩ := hsl j p e
    have : p ≠ a := by grind
    exact ⟨g1, d, n', r', by simpa [upd, this] using g2⟩
  · exact o1
  · exact o2
  · intro b k e
    obtain ⟨a', d, r', g1, g2⟩ := o3 b k e
    simp only [upd]
    by_cases hba : a' = a
    · subst hba; rw [hb] at g2; cases g2; exact ⟨a', c', _, g1, if_pos rfl⟩
    · exact ⟨a', d, r', g1, by simpa [hba] using g2⟩
  · intro b k e
    obtain ⟨a', d, r', g1, g2⟩ := o4 b k e
    simp only [upd]
    by_cases hba : a' = a
    · subst hba; rw [hb] at g2; cases g2; exact ⟨a', c', _, g1, if_pos rfl⟩
    · exact ⟨a', d, r', g1, by simpa [hba] using g2⟩
  · exact few_upd [a] hf fun b h1 h2 => by simpa [upd, show b ≠ a by simpa using h1] using h2

/-- The memory without the block of an FMU state. -/
def drop {α : Type} (f : Nat → Option α) (p : Option Nat) : Nat → Option α := fun a => if p = some a then none else f a

/-- The variable `j` gets a new block for its FMU state, or frees it. -/
theorem Inv.store {s : State F D} {role} (h : Inv s role) {j p : Nat} {c : Comp F D} {n r k}
    (hp : s.heap p = none ∨ s.slot j = some p) :
    Inv { s with heap := upd (drop s.heap (s.slot j)) p (some (.record c n r)), slot := upd s.slot j (some p), calls := k }
      (upd (drop role (s.slot j)) p (some (.slot j))) := by
  obtain ⟨hl, hin, hsl, o1, o2, o3, o4, hf⟩ := h
  constructor
  · intro b; simp only [upd, drop]; have := hl b; grind
  · intro k b e
    obtain ⟨g1, d, n', r', g2, g3, g4, g5⟩ := hin k b e
    have e1 : b ≠ p := by grind
    have e2 : s.slot j ≠ some b := by grind
    have e3 : n' ≠ p := by grind
    have e4 : s.slot j ≠ some n' := by grind
    refine ⟨by simpa [upd, drop, e1, e2] using g1, d, n', r', by simpa [upd, drop, e1, e2] using g2,
      by simpa [upd, drop, e3, e4] using g3, by simpa [upd, drop, e3, e4] using g4, ?_⟩
    cases r' with
    | none => exact g5
    | some q =>
      obtain ⟨k1, l, k2, k3⟩ := g5
      have e5 : q ≠ p := by grind
      have e6 : s.slot j ≠ some q := by grind
      exact ⟨by simpa [upd, drop, e5, e6] using k1, l, by simpa [upd, drop, e5, e6] using k2, k3⟩
  · intro j' p' e
    by_cases hj : j' = j
    · subst hj
      simp only [upd, if_true] at e
      cases e
      exact ⟨by simp [upd], c, n, r, by simp [upd]⟩
    · simp only [upd, hj, if_false] at e
      obtain ⟨g1, d, n', r', g2⟩ := hsl j' p' e
      have e1 : p' ≠ p := by grind
      have e2 : s.slot j ≠ some p' := by grind
      exact ⟨by simpa [upd, drop, e1, e2] using g1, d, n', r', by simpa [upd, drop, e1, e2] using g2⟩
  · intro a i e; simp only [upd, drop] at e; grind
  · intro a i e; simp only [upd, drop] at e ⊢; grind
  · intro b i e
    have e' : role b = some (.name i) := by simp only [upd, drop] at e; grind
    obtain ⟨a, d, r', g1, g2⟩ := o3 b i e'
    have := hin i a g1
    have e1 : a ≠ p := by grind
    have e2 : s.slot j ≠ some a := by grind
    exact ⟨a, d, r', g1, by simpa [upd, drop, e1, e2] using g2⟩
  · intro b i e
    have e' : role b = some (.path i) := by simp only [upd, drop] at e; grind
    obtain ⟨a, d, r', g1, g2⟩ := o4 b i e'
    have := hin i a g1
    have e1 : a ≠ p := by grind
    have e2 : s.slot j ≠ some a := by grind
    exact ⟨a, d, r', g1, by simpa [upd, drop, e1, e2] using g2⟩
  · exact few_upd [p] hf fun b h1 h2 => by simp [upd, drop, show b ≠ p by simpa using h1, h2]

theorem Inv.clear {s : State F D} {role} (h : Inv s role) {j : Nat} :
    Inv { s with heap := drop s.heap (s.slot j), slot := upd s.slot j none } (drop role (s.slot j)) := by
  obtain ⟨hl, hin, hsl, o1, o2, o3, o4, hf⟩ := h
  constructor
  · intro b; simp only [drop]; have := hl b; grind
  · intro k b e
    obtain ⟨g1, d, n', r', g2, g3, g4, g5⟩ := hin k b e
    have e2 : s.slot j ≠ some b := by grind
    have e4 : s.slot j ≠ some n' := by grind
    refine ⟨by simpa [drop, e2] using g1, d, n', r', by simpa [drop, e2] using g2,
      by simpa [drop, e4] using g3, by simpa [drop, e4] using g4, ?_⟩
    cases r' with
    | none => exact g5
    | some q =>
      obtain ⟨k1, l, k2, k3⟩ := g5
      have e6 : s.slot j ≠ some q := by grind
      exact ⟨by simpa [drop, e6] using k1, l, by simpa [drop, e6] using k2, k3⟩
  · intro j' p' e
    by_cases hj : j' = j
    · subst hj; simp [upd] at e
    · simp only [upd, hj, if_false] at e
      obtain ⟨g1, d, n', r', g2⟩ := hsl j' p' e
      have e2 : s.slot j ≠ some p' := by grind
      exact ⟨by simpa [drop, e2] using g1, d, n', r', by simpa [drop, e2] using g2⟩
  · intro a i e; simp only [drop] at e; grind
  · intro a i e; simp only [upd, drop] at e ⊢; grind
  · intro b i e
    have e' : role b = some (.name i) := by simp only [drop] at e; grind
    obtain ⟨a, d, r', g1, g2⟩ := o3 b i e'
    have := hin i a g1
    have e2 : s.slot j ≠ some a := by grind
    exact ⟨a, d, r', g1, by simpa [drop, e2] using g2⟩
  · intro b i e
    have e' : role b = some (.path i) := by simp only [drop] at e; grind
    obtain ⟨a, d, r', g1, g2⟩ := o4 b i e'
    have := hin i a g1
    have e2 : s.slot j ≠ some a := by grind
    exact ⟨a, d, r', g1, by simpa [drop, e2] using g2⟩
  · exact few_upd [] hf fun b h1 h2 => by simp [drop, h2]

/-! ### Messages and access -/

theorem malloc_some {lib : CLib} {u : Use} {s s' : State F D} {b : Block F D} {a : Nat} (e : malloc lib u s b = (some a, s')) :
    s.heap a = none ∧ s' = { s with heap := upd s.heap a (some b), calls := s.calls + 1 } := by
  unfold malloc at e
  split at e
  · simp at e
  · next x hx =>
    cases e
    refine ⟨?_, rfl⟩
    rcases lib.fresh _ _ _ _ _ hx with h | h
    · simpa [State.live] using h
    · cases h

theorem malloc_none {lib : CLib} {u : Use} {s s' : State F D} {b : Block F D} (e : malloc lib u s b = (none, s')) :
    s' = { s with calls := s.calls + 1 } := by
  unfold malloc at e
  split at e
  · cases e; rfl
  · simp at e

theorem malloc_reliable {lib : CLib} {u : Use} (hr : lib.Reliable u) (s : State F D) (hf : Few s.live) (b : Block F D) :
    ∃ a, malloc lib u s b = (some a, { s with heap := upd s.heap a (some b), calls := s.calls + 1 }) ∧ s.heap a = none := by
  cases e : malloc lib u s b with
  | mk o s' =>
    cases o with
    | none =>
      unfold malloc at e
      split at e
      · next hx => exact absurd hx (hr _ _ _ hf)
      · simp at e
    | some a => obtain ⟨h1, h2⟩ := malloc_some e; subst h2; exact ⟨a, rfl, h1⟩

theorem message_eq {lib : CLib} (hr : lib.Reliable .message) (s : State F D) (hf : Few s.live) :
    message lib s = .ret { s with calls := s.calls + 1 } := by
  obtain ⟨a, e, h⟩ := malloc_reliable hr s hf .raw
  have hh : upd (upd s.heap a (some .raw)) a none = s.heap := by
    funext b
    by_cases hb : b = a <;> simp [upd, hb, h]
  unfold message
  rw [e]
  simp only [free]
  rw [if_pos (by simp [State.live, upd]), hh]

theorem messages_eq {lib : CLib} (hr : lib.Reliable .message) : ∀ (n : Nat) (s : State F D), Few s.live →
    messages lib n s = .ret { s with calls := s.calls + n }
  | 0, s, _ => rfl
  | n + 1, s, hf => by
    rw [messages, message_eq hr _ hf, Outcome.ret_bind, messages_eq hr n _ (by exact hf)]
    simp only [Nat.add_assoc, Nat.add_comm 1]

theorem leave_eq {lib : CLib} (hr : lib.Reliable .message) (s : State F D) (hf : Few s.live) (a c c' n r) :
    s.leave lib a c c' n r = .ret { s with heap := upd s.heap a (some (.record c' n r)), calls := s.calls + sent c c' } :=
  messages_eq hr _ _ (few_upd [a] hf fun b h1 h2 => by simpa [upd, show b ≠ a by simpa using h1] using h2)

theorem Inv.access {s : State F D} {role} (h : Inv s role) {i a : Nat} (e : s.inst i = some a) :
    ∃ c n r, s.heap a = some (.record c n r) ∧ s.access a = .ret (c, n, r) ∧ s.theInstance i = some c := by
  obtain ⟨-, c, n, r, h2, h3, h4, h5⟩ := h.inst i a e
  refine ⟨c, some n, r, h2, ?_, by simp [State.theInstance, e, h2]⟩
  unfold State.access
  rw [h2]
  simp only []
  rw [if_pos]
  unfold State.intact
  simp only [h3]
  cases r with
  | none => simpa [Located] using h5
  | some r => obtain ⟨-, l, h6, h7⟩ := h5; simp [h6, h7]

theorem Inv.read {s : State F D} {role} (h : Inv s role) (j : Nat) : s.read j = .ret (s.theState j) := by
  unfold State.read State.theState
  cases e : s.slot j with
  | none => rfl
  | some p => obtain ⟨-, c, n, r, h2⟩ := h.slot j p e; simp [h2]

/-! ### Instances -/

/-- What `create` relies on. -/
structure Makes (make : Ptr UInt8 → Bool → Option (Comp F D) × List (Ev F)) : Prop where
  loc : ∀ {r c}, (make r true).1 = some c → c.ctx.resourceLocation = r
  name : ∀ {r r' c c'}, (make r true).1 = some c → (make r' true).1 = some c' → c'.instanceName = c.instanceName
  any : ∀ {r c} r', (make r true).1 = some c → ∃ c', (make r' true).1 = some c'

/-- A new instance is stored. -/
theorem Inv.install {s : State F D} {role} (h : Inv s role) {i a n : Nat} {r : Option Nat} {c : Comp F D} {k} (hi : s.inst i = none)
    (ha : s.heap a = none) (hn : s.heap n = none) (hna : n ≠ a) (heap : Nat → Option (Block F D)) (he : heap a = some (.record c (some n) r))
    (hen : heap n = some (.name c.instanceName)) (her : match r with
      | none => c.ctx.resourceLocation = none
      | some q => q ≠ a ∧ q ≠ n ∧ s.heap q = none ∧ ∃ l, heap q = some (.path l) ∧ c.ctx.resourceLocation = some l)
    (hrest : ∀ b, b ≠ a → b ≠ n → r ≠ some b → heap b = s.heap b) :
    Inv { s with heap := heap, inst := upd s.inst i (some a), calls := k }
      (fun b => if b = a then some (.inst i) else if b = n then some (.name i) else if r = some b then some (.path i) else role b) := by
  obtain ⟨hl, hin, hsl, o1, o2, o3, o4, hf⟩ := h
  have old : ∀ b, role b ≠ none → b ≠ a ∧ b ≠ n ∧ r ≠ some b := by
    intro b hb
    have := hl a; have := hl n; have := hl b
    refine ⟨by grind, by grind, ?_⟩
    intro e; subst e
    obtain ⟨-, -, g, -⟩ := her
    exact hb ((hl b).1 g)
  have keep : ∀ b, role b ≠ none → heap b = s.heap b ∧
      (if b = a then some (Role.inst i) else if b = n then some (.name i) else if r = some b then some (.path i) else role b) = role b := by
    intro b hb
    obtain ⟨e1, e2, e3⟩ := old b hb
    exact ⟨hrest b e1 e2 e3, by simp [e1, e2, e3]⟩
  have noinst : ∀ b, role b ≠ some (.inst i) := fun b e => by have := o1 b i e; grind
  have noname : ∀ b, role b ≠ some (.name i) := fun b e => by obtain ⟨_, _, _, g, -⟩ := o3 b i e; grind
  have nopath : ∀ b, role b ≠ some (.path i) := fun b e => by obtain ⟨_, _, _, g, -⟩ := o4 b i e; grind
  constructor
  · intro b
    by_cases e1 : b = a
    · subst e1; simp [he]
    · by_cases e2 : b = n
      · subst e2; simp [hen, e1]
      · by_cases e3 : r = some b
        · subst e3; obtain ⟨-, -, -, l, g, -⟩ := her; simp [g, e1, e2]
        · simp only [e1, e2, e3, if_false, hrest b e1 e2 e3]; exact hl b
  · intro k b e
    by_cases hk : k = i
    · subst hk
      simp only [upd, if_true] at e
      cases e
      refine ⟨by simp, c, n, r, he, hen, by simp [hna], ?_⟩
      cases r with
      | none => exact her
      | some q => obtain ⟨g1, g2, -, l, g3, g4⟩ := her; exact ⟨by simp [g1, g2], l, g3, g4⟩
    · simp only [upd, hk, if_false] at e
      obtain ⟨g1, d, n', r', g2, g3, g4, g5⟩ := hin k b e
      refine ⟨(keep b (by simp [g1])).2.trans g1, d, n', r', (keep b (by simp [g1])).1.trans g2,
        (keep n' (by simp [g4])).1.trans g3, (keep n' (by simp [g4])).2.trans g4, ?_⟩
      cases r' with
      | none => exact g5
      | some q =>
        obtain ⟨k1, l, k2, k3⟩ := g5
        exact ⟨(keep q (by simp [k1])).2.trans k1, l, (keep q (by simp [k1])).1.trans k2, k3⟩
  · intro j p e
    obtain ⟨g1, d, n', r', g2⟩ := hsl j p e
    exact ⟨(keep p (by simp [g1])).2.trans g1, d, n', r', (keep p (by simp [g1])).1.trans g2⟩
  · intro b k e
    have := o1 b k
    by_cases hk : k = i
    · subst hk
      have : b = a := by grind
      simp [upd, this]
    · simp only [upd, hk, if_false]; grind
  · intro p j e
    have := o2 p j
    grind
  · intro b k e
    by_cases hk : k = i
    · subst hk
      have := noname b
      have : b = n := by grind
      subst this
      exact ⟨a, c, r, by simp [upd], he⟩
    · have e' : role b = some (.name k) := by grind
      obtain ⟨a', d, r', g1, g2⟩ := o3 b k e'
      exact ⟨a', d, r', by simpa [upd, hk] using g1, (keep a' (by simp [(hin k a' g1).1])).1.trans g2⟩
  · intro b k e
    by_cases hk : k = i
    · subst hk
      have := nopath b
      have : r = some b := by grind
      subst this
      exact ⟨a, c, some n, by simp [upd], he⟩
    · have e' : role b = some (.path k) := by grind
      obtain ⟨a', d, r', g1, g2⟩ := o4 b k e'
      exact ⟨a', d, r', by simpa [upd, hk] using g1, (keep a' (by simp [(hin k a' g1).1])).1.trans g2⟩
  · refine few_upd (a :: n :: r.toList) hf fun b h1 h2 => ?_
    simp only [List.mem_cons, Option.mem_toList, not_or] at h1
    exact (hrest b h1.1 h1.2.1 h1.2.2).trans h2

/-- Memory where all old blocks are unchanged. -/
theorem Inv.theState_eq {s s' : State F D} {role} (h : Inv s role) (hs : s'.slot = s.slot) (hh : ∀ b, role b ≠ none → s'.heap b = s.heap b)
    (j : Nat) : s'.theState j = s.theState j := by
  unfold State.theState
  rw [hs]
  cases e : s.slot j with
  | none => rfl
  | some p => simp only []; rw [hh p (by simp [(h.slot j p e).1])]

theorem Inv.theInstance_eq {s s' : State F D} {role} (h : Inv s role) {k : Nat} (hs : s'.inst k = s.inst k)
    (hh : ∀ b, role b = some (.inst k) → s'.heap b = s.heap b) : s'.theInstance k = s.theInstance k := by
  unfold State.theInstance
  rw [hs]
  cases e : s.inst k with
  | none => rfl
  | some a => simp only []; rw [hh a (h.inst k a e).1]

theorem Inv.create {lib : CLib} {s : State F D} {role} (h : Inv s role) {i : Nat} (hi : s.inst i = none) (hr : lib.Reliable .name)
    {resource : Ptr UInt8} {make : Ptr UInt8 → Bool → Option (Comp F D) × List (Ev F)} (hm : Makes make) :
    ∃ s' role', Mem.create lib s i resource make = .ret s' ∧ Inv s' role' ∧ Rest s s' i ∧
      (s'.theInstance i = (make resource true).1 ∨ ¬lib.Reliable .instance ∧ s'.theInstance i = none ∨
        ¬lib.Reliable .resource ∧ s'.theInstance i = (make none true).1) := by
  have non : ∀ k, Inv { s with calls := k, inst := upd s.inst i none } role ∧ Rest s { s with calls := k, inst := upd s.inst i none } i ∧
      State.theInstance { s with calls := k, inst := upd s.inst i none } i = none := by
    intro k
    have : upd s.inst i none = s.inst := by
      funext x; by_cases hx : x = i <;> simp [upd, hx, hi]
    rw [this]
    exact ⟨h.calls k, ⟨fun _ _ => rfl, fun _ => rfl, rfl⟩, by simp [State.theInstance, hi]⟩
  unfold Mem.create
  cases e1 : (make resource true).1 with
  | none => exact ⟨_, role, rfl, (non s.calls).1, (non s.calls).2.1, .inl (non s.calls).2.2⟩
  | some c =>
    simp only []
    cases e2 : malloc lib .instance s (.record c none none) with
    | mk o s1 =>
    cases o with
    | none =>
      have := malloc_none e2
      subst this
      refine ⟨_, role, rfl, (non _).1, (non _).2.1, .inr (.inl ⟨fun hx => ?_, (non _).2.2⟩)⟩
      obtain ⟨a, e, -⟩ := malloc_reliable hx s h.few (.record c none none)
      rw [e] at e2
      simp at e2
    | some a =>
      obtain ⟨ha, e⟩ := malloc_some e2
      subst e
      have hf1 : Few (State.live { s with heap := upd s.heap a (some (.record c none none)), calls := s.calls + 1 }) :=
        few_upd [a] h.few fun b h1 h2 => by simpa [upd, show b ≠ a by simpa using h1] using h2
      obtain ⟨n, e3, hn⟩ := malloc_reliable hr { s with heap := upd s.heap a (some (.record c none none)), calls := s.calls + 1 } hf1
        (.name c.instanceName)
      have hna : n ≠ a := by intro hx; subst hx; simp [upd] at hn
      have hn' : s.heap n = none := by simpa [upd, hna] using hn
      simp only [e3]
      have lines : ∀ (r : Option Nat) (q : Ptr UInt8) (d : Comp F D) (heap : Nat → Option (Block F D)) (k : Nat), (make q true).1 = some d →
          (∀ x, r = some x → x ≠ a ∧ x ≠ n ∧ s.heap x = none ∧ ∃ l, heap x = some (.path l) ∧ q = some l) → (r = none → q = none) →
          heap n = some (.name c.instanceName) → (∀ b, b ≠ a → b ≠ n → r ≠ some b → heap b = s.heap b) →
          ∃ role', Inv { s with heap := upd heap a (some (.record d (some n) r)), inst := upd s.inst i (some a), calls := k } role' ∧
            Rest s { s with heap := upd heap a (some (.record d (some n) r)), inst := upd s.inst i (some a), calls := k } i ∧
            State.theInstance { s with heap := upd heap a (some (.record d (some n) r)), inst := upd s.inst i (some a), calls := k } i = some d := by
        intro r q d heap k e4 h1 h2 h3 h4
        have keep : ∀ b, role b ≠ none → upd heap a (some (.record d (some n) r)) b = s.heap b := by
          intro b hb
          have hb' : s.heap b ≠ none := fun hx => hb ((h.live b).1 hx)
          have b1 : b ≠ a := by intro hx; subst hx; exact hb' ha
          have b2 : b ≠ n := by intro hx; subst hx; exact hb' hn'
          have b3 : r ≠ some b := by intro hx; exact hb' (h1 b hx).2.2.1
          simp [upd, b1, h4 b b1 b2 b3]
        refine ⟨_, h.install (k := k) (c := d) (r := r) hi ha hn' hna _ (by simp [upd]) ?_ ?_ ?_, ⟨?_, ?_, rfl⟩, by simp [State.theInstance, upd]⟩
        · simp [upd, hna, h3, hm.name e1 e4]
        · cases r with
          | none => rw [hm.loc e4, h2 rfl]
          | some x =>
            obtain ⟨g1, g2, g3, l, g4, g5⟩ := h1 x rfl
            exact ⟨g1, g2, g3, l, by simp [upd, g1, g4], by rw [hm.loc e4, g5]⟩
        · intro b b1 b2 b3
          simp [upd, b1, h4 b b1 b2 b3]
        · intro k' hk
          exact h.theInstance_eq (by simp [upd, hk]) fun b hb => keep b (by simp [hb])
        · intro j
          exact h.theState_eq (s' := { s with heap := upd heap a (some (.record d (some n) r)), inst := upd s.inst i (some a), calls := k }) rfl keep j
      cases resource with
      | none =>
        simp only [Option.isSome_none, Bool.false_eq_true, if_false, Option.isNone_some, e1, Option.getD_some]
        obtain ⟨role', g1, g2, g3⟩ := lines none none c (upd (upd s.heap a (some (.record c none none))) n (some (.name c.instanceName)))
          (s.calls + 1 + 1) e1 (fun _ hx => by cases hx) (fun _ => rfl) (by simp [upd]) (fun b b1 b2 _ => by simp [upd, b1, b2])
        exact ⟨_, role', rfl, g1, g2, .inl g3⟩
      | some l =>
        simp only []
        obtain ⟨o, s2, e5⟩ : ∃ o s2, malloc lib .resource { s with
            heap := upd (upd s.heap a (some (.record c none none))) n (some (.name c.instanceName)), calls := s.calls + 1 + 1 } (.path l) = (o, s2) :=
          ⟨_, _, rfl⟩
        simp only [e5]
        cases o with
        | none =>
          have := malloc_none e5
          subst this
          obtain ⟨d, e6⟩ := hm.any none e1
          simp only [Option.isSome_none, Bool.false_eq_true, if_false, Option.isNone_some, e6, Option.getD_some]
          obtain ⟨role', g1, g2, g3⟩ := lines none none d (upd (upd s.heap a (some (.record c none none))) n (some (.name c.instanceName)))
            (s.calls + 1 + 1 + 1) e6 (fun _ hx => by cases hx) (fun _ => rfl) (by simp [upd]) (fun b b1 b2 _ => by simp [upd, b1, b2])
          refine ⟨_, role', rfl, g1, g2, .inr (.inr ⟨fun hx => ?_, g3⟩)⟩
          obtain ⟨x, e, -⟩ := malloc_reliable hx { s with heap := upd (upd s.heap a (some (.record c none none))) n (some (.name c.instanceName)),
                                                          calls := s.calls + 1 + 1 }
            (few_upd [n] hf1 fun b h1 h2 => by simp only [upd] at h2 ⊢; simpa [show b ≠ n by simpa using h1] using h2) (.path l)
          rw [e] at e5
          simp at e5
        | some x =>
          obtain ⟨hx, e⟩ := malloc_some e5
          subst e
          have x1 : x ≠ n := by intro hx'; subst hx'; simp [upd] at hx
          have x2 : x ≠ a := by intro hx'; subst hx'; simp [upd, x1] at hx
          have x3 : s.heap x = none := by simpa [upd, x1, x2] using hx
          simp only [Option.isSome_some, if_true, Option.isNone_some, Bool.false_eq_true, if_false, e1, Option.getD_some]
          obtain ⟨role', g1, g2, g3⟩ := lines (some x) (some l) c
            (upd (upd (upd s.heap a (some (.record c none none))) n (some (.name c.instanceName))) x (some (.path l)))
            (s.calls + 1 + 1 + 1) e1 (fun y hy => by cases hy; exact ⟨x2, x1, x3, l, by simp [upd], rfl⟩) (fun hy => by cases hy)
            (by simp [upd, Ne.symm x1]) (fun b b1 b2 b3 => by
              have : b ≠ x := fun hb => b3 (by rw [hb])
              simp [upd, b1, b2, this])
          exact ⟨_, role', rfl, g1, g2, .inl g3⟩

theorem Inv.destroy {s : State F D} {role} (h : Inv s role) (i : Nat) :
    ∃ s' role', Mem.destroy s i = .ret s' ∧ Inv s' role' ∧ Rest s s' i ∧ s'.theInstance i = none ∧ s'.inst = upd s.inst i none ∧
      s'.slot = s.slot := by
  unfold Mem.destroy
  cases e : s.inst i with
  | none =>
    refine ⟨s, role, rfl, h, ⟨fun _ _ => rfl, fun _ => rfl, rfl⟩, by simp [State.theInstance, e], ?_, rfl⟩
    funext x; by_cases hx : x = i <;> simp [upd, hx, e]
  | some a =>
    have h0 := h
    obtain ⟨ra, c, n, r, h1, h2, rn, h4⟩ := h.inst i a e
    simp only [h1]
    have hna : n ≠ a := by grind
    have fin : ∀ (heap : Nat → Option (Block F D)), heap a = none → heap n = none → (∀ x, r = some x → heap x = none) →
        (∀ b, b ≠ a → b ≠ n → r ≠ some b → heap b = s.heap b) →
        ∃ role', Inv { s with heap := heap, inst := upd s.inst i none } role' ∧ Rest s { s with heap := heap, inst := upd s.inst i none } i ∧
          State.theInstance { s with heap := heap, inst := upd s.inst i none } i = none := by
      intro heap g1 g2 g3 g4
      obtain ⟨hl, hin, hsl, o1, o2, o3, o4, hf⟩ := h
      have loc : ∀ b, role b = some (.inst i) ∨ role b = some (.name i) ∨ role b = some (.path i) ↔ b = a ∨ b = n ∨ r = some b := by
        intro b
        constructor
        · rintro (g | g | g)
          · have := o1 b i g; grind
          · obtain ⟨a', d, r', k1, k2⟩ := o3 b i g; grind
          · obtain ⟨a', d, r', k1, k2⟩ := o4 b i g; grind
        · rintro (g | g | g)
          · subst g; exact .inl ra
          · subst g; exact .inr (.inl rn)
          · subst g; exact .inr (.inr h4.1)
      have keep : ∀ b, ¬(role b = some (.inst i) ∨ role b = some (.name i) ∨ role b = some (.path i)) → heap b = s.heap b := by
        intro b hb
        rw [loc] at hb
        simp only [not_or] at hb
        exact g4 b hb.1 hb.2.1 hb.2.2
      refine ⟨fun b => if role b = some (.inst i) ∨ role b = some (.name i) ∨ role b = some (.path i) then none else role b, ?_, ⟨?_, ?_, rfl⟩,
        by simp [State.theInstance, upd]⟩
      · constructor
        · intro b
          by_cases hb : role b = some (.inst i) ∨ role b = some (.name i) ∨ role b = some (.path i)
          · simp only [hb, if_true, iff_true]
            rcases (loc b).1 hb with g | g | g
            · subst g; exact g1
            · subst g; exact g2
            · exact g3 b g
          · simp only [hb, if_false, keep b hb]; exact hl b
        · intro k b ek
          have hk : k ≠ i := by intro hk; subst hk; simp [upd] at ek
          simp only [upd, hk, if_false] at ek
          obtain ⟨k1, d, n', r', k2, k3, k4, k5⟩ := hin k b ek
          have x1 : ¬(role b = some (.inst i) ∨ role b = some (.name i) ∨ role b = some (.path i)) := by grind
          have x2 : ¬(role n' = some (.inst i) ∨ role n' = some (.name i) ∨ role n' = some (.path i)) := by grind
          refine ⟨(if_neg x1).trans k1, d, n', r', (keep b x1).trans k2, (keep n' x2).trans k3,
            (if_neg x2).trans k4, ?_⟩
          cases r' with
          | none => exact k5
          | some q =>
            obtain ⟨y1, l, y2, y3⟩ := k5
            have x3 : ¬(role q = some (.inst i) ∨ role q = some (.name i) ∨ role q = some (.path i)) := by grind
            exact ⟨(if_neg x3).trans y1, l, (keep q x3).trans y2, y3⟩
        · intro j p ej
          obtain ⟨k1, d, n', r', k2⟩ := hsl j p ej
          have x1 : ¬(role p = some (.inst i) ∨ role p = some (.name i) ∨ role p = some (.path i)) := by grind
          exact ⟨(if_neg x1).trans k1, d, n', r', (keep p x1).trans k2⟩
        · intro b k ek
          have := o1 b k
          simp only [upd]; grind
        · intro b k ek
          have := o2 b k
          grind
        · intro b k ek
          have e' : role b = some (.name k) := by grind
          have hk : k ≠ i := by grind
          obtain ⟨a', d, r', k1, k2⟩ := o3 b k e'
          have := (hin k a' k1).1
          have x1 : ¬(role a' = some (.inst i) ∨ role a' = some (.name i) ∨ role a' = some (.path i)) := by grind
          exact ⟨a', d, r', by simpa [upd, hk] using k1, (keep a' x1).trans k2⟩
        · intro b k ek
          have e' : role b = some (.path k) := by grind
          have hk : k ≠ i := by grind
          obtain ⟨a', d, r', k1, k2⟩ := o4 b k e'
          have := (hin k a' k1).1
          have x1 : ¬(role a' = some (.inst i) ∨ role a' = some (.name i) ∨ role a' = some (.path i)) := by grind
          exact ⟨a', d, r', by simpa [upd, hk] using k1, (keep a' x1).trans k2⟩
        · refine few_upd (a :: n :: r.toList) hf fun b y1 y2 => ?_
          simp only [List.mem_cons, Option.mem_toList, not_or] at y1
          exact (g4 b y1.1 y1.2.1 y1.2.2).trans y2
      · intro k hk
        exact h0.theInstance_eq (by simp [upd, hk]) fun b hb => keep b (by grind)
      · intro j
        unfold State.theState
        cases ej : s.slot j with
        | none => rfl
        | some p => simp only []; rw [keep p (by have := (hsl j p ej).1; grind)]
    have f1 : free s (some n) = .ret { s with heap := upd s.heap n none } := by simp [free, State.live, h2]
    simp only [f1, Outcome.ret_bind]
    cases r with
    | none =>
      have f2 : free { s with heap := upd s.heap n none } (some a) = .ret { s with heap := upd (upd s.heap n none) a none } := by
        simp [free, State.live, upd, Ne.symm hna, h1]
      simp only [free.eq_1, Outcome.ret_bind, f2]
      obtain ⟨role', k1, k2, k3⟩ := fin (upd (upd s.heap n none) a none) (by simp [upd]) (by simp [upd]) (fun _ hx => by cases hx)
        (fun b b1 b2 _ => by simp [upd, b1, b2])
      exact ⟨_, role', rfl, k1, k2, k3, rfl, rfl⟩
    | some x =>
      obtain ⟨rx, l, h5, -⟩ := h4
      have x1 : x ≠ a := by grind
      have x2 : x ≠ n := by grind
      have f2 : free { s with heap := upd s.heap n none } (some x) = .ret { s with heap := upd (upd s.heap n none) x none } := by
        simp [free, State.live, upd, x2, h5]
      have f3 : free { s with heap := upd (upd s.heap n none) x none } (some a) =
          .ret { s with heap := upd (upd (upd s.heap n none) x none) a none } := by
        simp [free, State.live, upd, Ne.symm hna, Ne.symm x1, h1]
      simp only [f2, Outcome.ret_bind, f3]
      obtain ⟨role', k1, k2, k3⟩ := fin (upd (upd (upd s.heap n none) x none) a none) (by simp [upd]) (by simp [upd])
        (fun y hy => by cases hy; simp [upd])
        (fun b b1 b2 b3 => by
          have : b ≠ x := fun hb => b3 (by rw [hb])
          simp [upd, b1, b2, this])
      exact ⟨_, role', rfl, k1, k2, k3, rfl, rfl⟩

/-! ### Calls -/

theorem Inv.leave {lib : CLib} (hr : lib.Reliable .message) {s : State F D} {role} (h : Inv s role) {i a : Nat} {c c' d : Comp F D} {n r}
    (ha : s.inst i = some a) (hb : s.heap a = some (.record d n r)) (h1 : c'.instanceName = d.instanceName)
    (h2 : c'.ctx.resourceLocation = d.ctx.resourceLocation) :
    ∃ s', s.leave lib a c c' n r = .ret s' ∧ Inv s' role ∧ After s s' i c' s.theState s.bufs := by
  refine ⟨_, leave_eq hr _ h.few .., (h.write ha hb h1 h2).calls _, ?_⟩
  have ra := (h.inst i a ha).1
  refine ⟨by simp [State.theInstance, ha, upd], fun k hk => ?_, fun j => ?_, rfl, rfl⟩
  · exact h.theInstance_eq rfl fun b hx => by
      have : b ≠ a := by grind
      simp [upd, this]
  · unfold State.theState
    cases ej : s.slot j with
    | none => rfl
    | some p =>
      have := (h.slot j p ej).1
      have : p ≠ a := by grind
      simp [upd, this]

/-- An FMU state is saved: the memory and the FMU states afterwards. -/
theorem Inv.stored {s : State F D} {role} (h : Inv s role) {j p : Nat} {c : Comp F D} {n r k} (hp : s.heap p = none ∨ s.slot j = some p) :
    let s' := { s with heap := upd (drop s.heap (s.slot j)) p (some (.record c n r)), slot := upd s.slot j (some p), calls := k }
    (∃ role', Inv s' role') ∧ (∀ i a, s.inst i = some a → s'.heap a = s.heap a) ∧ (∀ i, s'.theInstance i = s.theInstance i) ∧
      ∀ x, s'.theState x = if x = j then some c else s.theState x := by
  intro s'
  have other : ∀ b, (∀ i, role b ≠ some (.slot i)) → role b ≠ none → s'.heap b = s.heap b := by
    intro b hb h0
    have e1 : b ≠ p := by
      intro hx; subst hx
      rcases hp with hp | hp
      · exact h0 ((h.live b).1 hp)
      · exact hb j (h.slot j b hp).1
    have e2 : s.slot j ≠ some b := fun hx => hb j (h.slot j b hx).1
    simp [s', upd, drop, e1, e2]
  refine ⟨⟨_, h.store hp⟩, fun i a ha => ?_, fun i => ?_, fun x => ?_⟩
  · have := (h.inst i a ha).1
    exact other a (by simp [this]) (by simp [this])
  · exact h.theInstance_eq rfl fun b hb => other b (by simp [hb]) (by simp [hb])
  · by_cases hx : x = j
    · subst hx; simp [State.theState, s', upd]
    · simp only [State.theState, s', upd, hx, if_false]
      cases ex : s.slot x with
      | none => rfl
      | some q =>
        have hq := (h.slot x q ex).1
        have e1 : q ≠ p := by
          intro he; subst he
          rcases hp with hp | hp
          · have := (h.live q).1 hp; simp [hq] at this
          · have := (h.slot j q hp).1; rw [hq] at this; cases this; exact hx rfl
        have e2 : s.slot j ≠ some q := by
          intro he; have := (h.slot j q he).1; rw [hq] at this; cases this; exact hx rfl
        simp [drop, e1, e2]

theorem Inv.cleared {s : State F D} {role} (h : Inv s role) (j : Nat) :
    let s' := { s with heap := drop s.heap (s.slot j), slot := upd s.slot j none }
    (∃ role', Inv s' role') ∧ (∀ i a, s.inst i = some a → s'.heap a = s.heap a) ∧ (∀ i, s'.theInstance i = s.theInstance i) ∧
      ∀ x, s'.theState x = if x = j then none else s.theState x := by
  intro s'
  have other : ∀ b, (∀ i, role b ≠ some (.slot i)) → s'.heap b = s.heap b := by
    intro b hb
    have e2 : s.slot j ≠ some b := fun hx => hb j (h.slot j b hx).1
    simp [s', drop, e2]
  refine ⟨⟨_, h.clear⟩, fun i a ha => ?_, fun i => ?_, fun x => ?_⟩
  · have := (h.inst i a ha).1
    exact other a (by simp [this])
  · exact h.theInstance_eq rfl fun b hb => other b (by simp [hb])
  · by_cases hx : x = j
    · subst hx; simp [State.theState, s', upd]
    · simp only [State.theState, s', upd, hx, if_false]
      cases ex : s.slot x with
      | none => rfl
      | some q =>
        have hq := (h.slot x q ex).1
        have e2 : s.slot j ≠ some q := by
          intro he; have := (h.slot j q he).1; rw [hq] at this; cases this; exact hx rfl
        simp [drop, e2]

/-- `getFMUState`: saved, or memory is exhausted. -/
theorem Inv.getFMUState {lib : CLib} {s : State F D} {role} (h : Inv s role) (c : Comp F D) (n r) (j : Nat) :
    (∃ p k, (s.heap p = none ∨ s.slot j = some p) ∧ Mem.getFMUState lib s c n r j = .ret (c, .OK,
      { s with heap := upd (drop s.heap (s.slot j)) p (some (.record c n r)), slot := upd s.slot j (some p), calls := k })) ∨
    ¬lib.Reliable .save ∧ ∃ k, Mem.getFMUState lib s c n r j =
      .ret (c.logError "Failed to allocate memory.", .Error, { s with calls := k }) := by
  unfold Mem.getFMUState s_reallocate realloc
  have hl : (s.slot j).all s.live = true := by
    cases e : s.slot j with
    | none => rfl
    | some p => obtain ⟨-, d, n', r', h2⟩ := h.slot j p e; simp [State.live, h2]
  rw [if_pos hl]
  cases ea : lib.alloc .save s.calls s.live (s.slot j) with
  | none => exact .inr ⟨fun hx => hx _ _ _ h.few ea, s.calls + 1, by simp⟩
  | some p =>
    refine .inl ⟨p, s.calls + 1, ?_, ?_⟩
    · rcases lib.fresh _ _ _ _ _ ea with g | g
      · left; simpa [State.live] using g
      · exact .inr g
    · simp only [Outcome.ret_bind, ne_eq, not_true_eq_false, if_false, upd, if_true]
      congr 3
      simp only [State.mk.injEq, and_true]
      funext b
      by_cases hb : b = p
      · simp [upd, hb]
      · cases e : s.slot j with
        | none => simp [upd, drop, hb]
        | some q =>
          by_cases hq : b = q
          · subst hq; simp [upd, drop, hb]
          · simp [upd, drop, hb, hq, Ne.symm hq]

theorem Inv.freeFMUState {s : State F D} {role} (h : Inv s role) (j : Nat) :
    Mem.freeFMUState s j = .ret { s with heap := drop s.heap (s.slot j), slot := upd s.slot j none } := by
  unfold Mem.freeFMUState
  cases e : s.slot j with
  | none =>
    simp only [free, Outcome.ret_bind]
    congr 2
  | some p =>
    obtain ⟨-, d, n', r', h2⟩ := h.slot j p e
    have f1 : free s (some p) = .ret { s with heap := upd s.heap p none } := by simp [free, State.live, h2]
    rw [f1, Outcome.ret_bind]
    congr 2
    funext b
    by_cases hb : b = p <;> simp [drop, upd, hb, eq_comm]
    grind

/-- `provide` and `copyIn`: loaded, or memory is exhausted. -/
theorem Inv.load {lib : CLib} {s : State F D} {role} (h : Inv s role) (c : Comp F D) (j : Nat) :
    (∃ p k, (s.heap p = none ∨ s.slot j = some p) ∧ (provide lib s j).slot j ≠ none ∧ (provide lib s j).bufs = s.bufs ∧
      copyIn (provide lib s j) j c = .ret
      { s with heap := upd (drop s.heap (s.slot j)) p (some (.record c none none)), slot := upd s.slot j (some p), calls := k }) ∨
    ¬lib.Reliable .load ∧ ∃ k, provide lib s j = { s with calls := k } ∧ s.slot j = none := by
  unfold provide
  cases e : s.slot j with
  | some p =>
    obtain ⟨-, d, n', r', h2⟩ := h.slot j p e
    refine .inl ⟨p, s.calls, .inr rfl, by simp [e], rfl, ?_⟩
    simp only [copyIn, e]
    rw [if_pos (by simp [State.live, h2])]
    congr 2
    · funext b
      by_cases hb : b = p <;> simp [drop, upd, hb, eq_comm]
      grind
    · funext b
      by_cases hb : b = j <;> simp [upd, hb, e]
  | none =>
    simp only []
    obtain ⟨o, s1, e1⟩ : ∃ o s1, malloc lib .load s .raw = (o, s1) := ⟨_, _, rfl⟩
    rw [e1]
    cases o with
    | none =>
      have := malloc_none e1
      subst this
      refine .inr ⟨fun hx => ?_, s.calls + 1, ?_, trivial⟩
      · obtain ⟨a, e2, -⟩ := malloc_reliable hx s h.few .raw
        rw [e2] at e1; simp at e1
      · congr 1
        funext b
        by_cases hb : b = j <;> simp [upd, hb, e]
    | some p =>
      obtain ⟨hp, e2⟩ := malloc_some e1
      subst e2
      refine .inl ⟨p, s.calls + 1, .inl hp, by simp [upd], rfl, ?_⟩
      simp only [copyIn, upd, if_true]
      rw [if_pos (by simp [State.live, upd])]
      congr 2
      funext b
      by_cases hb : b = p <;> simp [drop, upd, hb]

end Mem
end Verif
