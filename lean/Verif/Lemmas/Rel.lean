import Verif.FMI3

/-!
# Relational rules: two executions side by side

`Outcome.Rel Q r r'`: both executions return with results related by `Q`, or both run into
undefined behaviour, or both run out of fuel.
-/

set_option linter.unusedSectionVars false

namespace Verif

/-- Two executions end in the same way, with results related by `Q`. -/
def Outcome.Rel {α β : Type} (Q : α → β → Prop) : Outcome α → Outcome β → Prop
  | .ret a, .ret b => Q a b
  | .ub, .ub => True
  | .hang, .hang => True
  | _, _ => False

namespace Outcome
variable {α β γ δ : Type} {Q : α → β → Prop} {Q' : γ → δ → Prop}

@[simp] theorem rel_ret {a : α} {b : β} : Rel Q (.ret a) (.ret b) ↔ Q a b := Iff.rfl
@[simp] theorem rel_ub : Rel Q .ub .ub ↔ True := Iff.rfl
@[simp] theorem rel_hang : Rel Q .hang .hang ↔ True := Iff.rfl

theorem Rel.bind {r : Outcome α} {r' : Outcome β} {k : α → Outcome γ} {k' : β → Outcome δ}
    (h : Rel Q r r') (hk : ∀ a b, Q a b → Rel Q' (k a) (k' b)) : Rel Q' (r >>- k) (r' >>- k') := by
  cases r <;> cases r' <;> first | exact hk _ _ h | exact h.elim | trivial

theorem Rel.same {r : Outcome α} {k : α → Outcome γ} {k' : α → Outcome δ}
    (hk : ∀ a, r = .ret a → Rel Q' (k a) (k' a)) : Rel Q' (r >>- k) (r >>- k') := by
  cases r with
  | ret a => exact hk a rfl
  | ub => trivial
  | hang => trivial

theorem Rel.mono {Q₂ : α → β → Prop} {r : Outcome α} {r' : Outcome β} (h : Rel Q r r')
    (hq : ∀ a b, Q a b → Q₂ a b) : Rel Q₂ r r' := by
  cases r <;> cases r' <;> first | exact hq _ _ h | exact h.elim | trivial

theorem Rel.ret_left {a : α} {r' : Outcome β} (h : Rel Q (.ret a) r') : ∃ b, r' = .ret b ∧ Q a b := by
  cases r' with
  | ret b => exact ⟨b, rfl, h⟩
  | ub => exact h.elim
  | hang => exact h.elim

theorem Rel.refl {Q : α → α → Prop} {r : Outcome α} (h : ∀ a, r = .ret a → Q a a) : Rel Q r r := by
  cases r with
  | ret a => exact h a rfl
  | ub => trivial
  | hang => trivial

theorem Rel.trans {Q₂ : β → γ → Prop} {Q₃ : α → γ → Prop} {r : Outcome α} {r' : Outcome β}
    {r'' : Outcome γ} (h : Rel Q r r') (h' : Rel Q₂ r' r'')
    (hq : ∀ a b c, Q a b → Q₂ b c → Q₃ a c) : Rel Q₃ r r'' := by
  cases r <;> cases r' <;> cases r'' <;>
    first | exact hq _ _ _ h h' | exact h.elim | exact h'.elim | trivial

theorem Rel.eq {r r' : Outcome α} (h : Rel Eq r r') : r = r' := by
  cases r <;> cases r' <;> first | exact congrArg _ h | rfl | exact h.elim
end Outcome

section
variable {F D : Type}

/-- The contexts agree in everything but the logging switches and the logger. -/
def CtxRel (c c' : Ctx F) : Prop :=
  ∃ a b l, c' = { c with logErrors := a, logEvents := b, logger := l }

theorem CtxRel.refl (c : Ctx F) : CtxRel c c := ⟨c.logErrors, c.logEvents, c.logger, rfl⟩

theorem CtxRel.symm {c c' : Ctx F} (h : CtxRel c c') : CtxRel c' c := by
  obtain ⟨a, b, l, rfl⟩ := h; exact ⟨c.logErrors, c.logEvents, c.logger, rfl⟩

theorem CtxRel.trans {c c' c'' : Ctx F} (h : CtxRel c c') (h' : CtxRel c' c'') : CtxRel c c'' := by
  obtain ⟨a, b, l, rfl⟩ := h; obtain ⟨a', b', l', rfl⟩ := h'; exact ⟨a', b', l', rfl⟩

theorem CtxRel.state {c c' : Ctx F} (h : CtxRel c c') : c'.state = c.state := by
  obtain ⟨a, b, l, rfl⟩ := h; rfl
theorem CtxRel.time {c c' : Ctx F} (h : CtxRel c c') : c'.time = c.time := by
  obtain ⟨a, b, l, rfl⟩ := h; rfl
theorem CtxRel.typ {c c' : Ctx F} (h : CtxRel c c') : c'.typ = c.typ := by
  obtain ⟨a, b, l, rfl⟩ := h; rfl

/-- Results of `model.c` functions related by `E`, with the same status and outputs. -/
def MRel {β : Type} (E : MV F D → MV F D → Prop) (r r' : MRes F D β) : Prop :=
  r.Rel (fun x x' => E x.1 x'.1 ∧ x.2 = x'.2) r'

/-- Results of functions on instances related by `S`, with the same status and outputs. -/
def RRel {β : Type} (S : Comp F D → Comp F D → Prop) (r r' : Res F D β) : Prop :=
  r.Rel (fun x x' => S x.1 x'.1 ∧ x.2 = x'.2) r'

/-- `E` does not look at the trace. -/
def TraceFree (E : MV F D → MV F D → Prop) : Prop :=
  ∀ mv mv' t t', E mv mv' → E { mv with trace := t } { mv' with trace := t' }

variable {E : MV F D → MV F D → Prop} {ctx ctx' : Ctx F} {mv mv' : MV F D}

theorem TraceFree.log (ht : TraceFree E) (h : E mv mv') (msg : String) :
    E (logError ctx mv msg) (logError ctx' mv' msg) := by
  have key : ∀ (c : Ctx F) (mv : MV F D), ∃ t, logError c mv msg = { mv with trace := t } := by
    intro c mv; unfold logError; split
    · exact ⟨_, rfl⟩
    · exact ⟨mv.trace, rfl⟩
  obtain ⟨t, e⟩ := key ctx mv
  obtain ⟨t', e'⟩ := key ctx' mv'
  rw [e, e']; exact ht _ _ t t' h

theorem MRel.ret {β : Type} {s : Status} {b : β} (h : E mv mv') :
    MRel E (.ret (mv, s, b)) (.ret (mv', s, b)) := ⟨h, rfl⟩
theorem MRel.ret' {β : Type} {s s' : Status} {b b' : β} (h : E mv mv') (hs : s = s') (hb : b = b') :
    MRel E (.ret (mv, s, b)) (.ret (mv', s', b')) := by subst hs hb; exact ⟨h, rfl⟩
theorem MRel.ub {β : Type} : MRel (β := β) E .ub .ub := trivial

theorem MRel.fail {β : Type} (ht : TraceFree E) (h : E mv mv') {msg : String} {b : β} :
    MRel E (failM ctx mv msg b) (failM ctx' mv' msg b) := ⟨ht.log h msg, rfl⟩

theorem MRel.nValues {β : Type} (ht : TraceFree E) (h : E mv mv') {n nv i : Nat} {b : β}
    {k k' : MRes F D β} (hk : MRel E k k') :
    MRel E (assertNValues ctx mv n nv i b k) (assertNValues ctx' mv' n nv i b k') := by
  unfold assertNValues; split
  · exact .fail ht h
  · exact hk

theorem MRel.notNull {α β : Type} (ht : TraceFree E) (h : E mv mv') {p : Option α} {b : β}
    {k k' : MRes F D β} (hk : MRel E k k') :
    MRel E (assertNotNull ctx mv p b k) (assertNotNull ctx' mv' p b k') := by
  unfold assertNotNull; split
  · exact .fail ht h
  · exact hk

theorem MRel.size {β : Type} (ht : TraceFree E) (h : E mv mv') {a e : Nat} {b : β}
    {k k' : MRes F D β} (hk : MRel E k k') :
    MRel E (assertSize ctx mv a e b k) (assertSize ctx' mv' a e b k') := by
  unfold assertSize; split
  · exact .fail ht h
  · exact hk

theorem MRel.bind {α β : Type} {r : Outcome α} {k k' : α → MRes F D β}
    (hk : ∀ a, r = .ret a → MRel E (k a) (k' a)) : MRel E (r >>- k) (r >>- k') :=
  Outcome.Rel.same hk

theorem MRel.then {α β : Type} {r r' : MRes F D α} {k k' : MV F D × Status × α → MRes F D β}
    (h : MRel E r r') (hk : ∀ mv mv' x, E mv mv' → MRel E (k (mv, x)) (k' (mv', x))) :
    MRel E (r >>- k) (r' >>- k') :=
  Outcome.Rel.bind h fun a b hab => by
    obtain ⟨mv, x⟩ := a; obtain ⟨mv', x'⟩ := b
    obtain ⟨h1, h2⟩ := hab; simp only at h2; subst h2; exact hk _ _ _ h1

theorem MRel.ite {β : Type} {c c' : Prop} [Decidable c] [Decidable c'] (hc : c ↔ c')
    {a a' b b' : MRes F D β} (h1 : MRel E a a') (h2 : MRel E b b') :
    MRel E (if c then a else b) (if c' then a' else b') := by
  by_cases h : c
  · rw [if_pos h, if_pos (hc.1 h)]; exact h1
  · rw [if_neg h, if_neg fun h' => h (hc.2 h')]; exact h2

theorem MRel.putScalar {α : Type} (ht : TraceFree E) (h : E mv mv') {p : Ptr α} {nv i : Nat}
    {v v' : α} (hv : v = v') :
    MRel E (putScalar ctx mv p nv i v) (putScalar ctx' mv' p nv i v') := by
  subst hv
  exact .nValues ht h (.bind fun _ _ => .ret h)

theorem MRel.takeScalar {α : Type} (ht : TraceFree E) (h : E mv mv') {p : Ptr α} {nv i : Nat}
    {upd upd' : α → D} (hu : ∀ v, E { mv with data := upd v, isDirtyValues := true }
      { mv' with data := upd' v, isDirtyValues := true }) :
    MRel E (takeScalar ctx mv p nv i upd) (takeScalar ctx' mv' p nv i upd') :=
  .nValues ht h (.bind fun _ _ => .ret (hu _))

/-- The relation for vectors in scratch arrays: `n` elements of equally long arrays agree after
success, or if the arrays `l` and `l'` given agreed before. -/
def VecRel (E : MV F D → MV F D → Prop) (n : Nat) (l l' : List F) (r r' : MRes F D (Ptr F)) : Prop :=
  r.Rel (fun x x' => E x.1 x'.1 ∧ x.2.1 = x'.2.1 ∧ ∃ q q', x.2.2 = some q ∧
    x'.2.2 = some q' ∧ q.length = l.length ∧ q'.length = l.length ∧
    (x.2.1 = .OK ∨ l.take n = l'.take n → q.take n = q'.take n)) r'

theorem writeN_length {α : Type} {l : List α} : ∀ {vs : List α} {i : Nat} {p : Ptr α},
    writeN (some l) i vs = .ret p → ∃ q, p = some q ∧ q.length = l.length := by
  intro vs
  induction vs generalizing l with
  | nil => intro i p h; cases h; exact ⟨_, rfl, rfl⟩
  | cons v vs ih =>
    intro i p h
    simp only [writeN, Ptr.write] at h
    split at h
    · simp only [Outcome.ret_bind] at h
      obtain ⟨q, rfl, hq⟩ := ih h
      exact ⟨q, rfl, by simpa using hq⟩
    · cases h

/-- Writing to equally long arrays. -/
theorem writeN_rel {α : Type} {vs : List α} : ∀ {l l' : List α} {i : Nat},
    l.length = l'.length → l.take i = l'.take i →
    (writeN (some l) i vs).Rel (fun p p' => ∃ q q', p = some q ∧ p' = some q' ∧
      q.length = l.length ∧ q'.length = l.length ∧
      q.take (i + vs.length) = q'.take (i + vs.length)) (writeN (some l') i vs) := by
  induction vs with
  | nil => intro l l' i h ht; exact ⟨l, l', rfl, rfl, rfl, h.symm, by simpa using ht⟩
  | cons v vs ih =>
    intro l l' i h ht
    simp only [writeN, Ptr.write, ← h]
    split
    · next hi =>
      simp only [Outcome.ret_bind]
      refine (ih (l := l.set i v) (l' := l'.set i v) (i := i + 1) (by simp [h]) ?_).mono ?_
      · rw [List.take_add_one, List.take_add_one]
        simp [List.take_set_of_le, ht, hi, h ▸ hi]
      · rintro p p' ⟨q, q', h1, h2, h3, h4, h5⟩
        refine ⟨q, q', h1, h2, by simpa using h3, by simpa using h4, ?_⟩
        simpa [Nat.add_assoc, Nat.add_comm 1] using h5
    · trivial

theorem readN_rel {α : Type} {n : Nat} : ∀ {l l' : List α} {i : Nat},
    l.take (i + n) = l'.take (i + n) → readN (some l) i n = readN (some l') i n := by
  induction n with
  | zero => intros; rfl
  | succ n ih =>
    intro l l' i h
    have h0 : l[i]? = l'[i]? := by
      have := congrArg (fun x : List α => x[i]?) h
      simpa [List.getElem?_take, show i < i + (n + 1) by omega] using this
    have h1 := ih (l := l) (l' := l') (i := i + 1) (by rw [show i + 1 + n = i + (n + 1) by omega]; exact h)
    simp only [readN, Ptr.read, h0, h1]

theorem MRel.putVector {w w' : MV F D} (ht : TraceFree E) (h : E mv mv') (hw : E w w') {p : Ptr F}
    {n : Nat} {vs vs' : List F} (hv : vs = vs') :
    MRel E (putVector ctx mv w p n vs) (putVector ctx' mv' w' p n vs') := by
  subst hv
  exact .notNull ht h (.size ht h (.bind fun _ _ => .ret hw))

theorem VecRel.putVector {w w' : MV F D} (ht : TraceFree E) (h : E mv mv') (hw : E w w')
    {l l' : List F} (hl : l.length = l'.length) {n : Nat} {vs vs' : List F} (hv : vs = vs') :
    VecRel E n l l' (putVector ctx mv w (some l) n vs) (putVector ctx' mv' w' (some l') n vs') := by
  subst hv
  unfold Verif.putVector assertNotNull assertSize
  simp only [Option.isNone_some, Bool.false_eq_true, if_false]
  split
  · exact ⟨ht.log h _, rfl, l, l', rfl, rfl, rfl, hl.symm, fun h => h.elim (fun h => by cases h) id⟩
  · next hn =>
    simp only [ne_eq, Decidable.not_not] at hn
    refine Outcome.Rel.bind (writeN_rel hl (by simp)) ?_
    rintro p p' ⟨q, q', rfl, rfl, h3, h4, h5⟩
    refine ⟨hw, rfl, q, q', rfl, rfl, h3, h4, fun _ => ?_⟩
    simpa [hn] using h5

/-- The relation for `setContinuousStates` from scratch arrays: outputs are ignored. -/
def SetRel (E : MV F D → MV F D → Prop) (r r' : MRes F D (Ptr F)) : Prop :=
  r.Rel (fun x x' => E x.1 x'.1 ∧ x.2.1 = x'.2.1) r'

theorem MRel.takeVector (ht : TraceFree E) (h : E mv mv') {p : Ptr F} {n k : Nat}
    {upd upd' : List F → D} (hu : ∀ v, E { mv with data := upd v, isDirtyValues := true }
      { mv' with data := upd' v, isDirtyValues := true }) :
    MRel E (takeVector ctx mv p n k upd) (takeVector ctx' mv' p n k upd') :=
  .notNull ht h (.size ht h (.bind fun _ _ => .ret (hu _)))

theorem SetRel.takeVector (ht : TraceFree E) (h : E mv mv') {l l' : List F} {n k : Nat}
    (hl : l.take n = l'.take n)
    {upd upd' : List F → D} (hu : ∀ v, E { mv with data := upd v, isDirtyValues := true }
      { mv' with data := upd' v, isDirtyValues := true }) :
    SetRel E (takeVector ctx mv (some l) n k upd) (takeVector ctx' mv' (some l') n k upd') := by
  unfold Verif.takeVector assertNotNull assertSize
  simp only [Option.isNone_some, Bool.false_eq_true, if_false]
  split
  · exact ⟨ht.log h _, rfl⟩
  · next hn =>
    simp only [ne_eq, Decidable.not_not] at hn
    subst hn
    rw [readN_rel (l := l) (l' := l') (by simpa using hl)]
    exact Outcome.Rel.same fun _ _ => ⟨hu _, rfl⟩

theorem MRel.vecStub (ht : TraceFree E) (h : E mv mv') {p : Ptr F} {n : Nat} :
    MRel E (vecStub ctx mv p n) (vecStub ctx' mv' p n) := .size ht h (.ret h)

theorem VecRel.stub (ht : TraceFree E) (h : E mv mv') {l l' : List F} {n : Nat}
    (hl : l.length = l'.length) :
    VecRel E n l l' (vecStub ctx mv (some l) n) (vecStub ctx' mv' (some l') n) := by
  unfold Verif.vecStub assertSize
  split
  · exact ⟨ht.log h _, rfl, l, l', rfl, rfl, rfl, hl.symm, fun h => h.elim (fun h => by cases h) id⟩
  · next hn =>
    simp only [ne_eq, Decidable.not_not] at hn
    subst hn
    exact ⟨h, rfl, l, l', rfl, rfl, rfl, hl.symm, by simp⟩

theorem SetRel.stub (ht : TraceFree E) (h : E mv mv') {l l' : List F} {n : Nat} :
    SetRel E (vecStub ctx mv (some l) n) (vecStub ctx' mv' (some l') n) := by
  unfold Verif.vecStub assertSize
  split
  · exact ⟨ht.log h _, rfl⟩
  · exact ⟨h, rfl⟩

/-- `if (isDirtyValues) { calculateValues(); isDirtyValues = false; }` on the writable part. -/
def refreshM (m : Model F D) (ctx : Ctx F) (mv : MV F D) : MRes F D Unit :=
  if mv.isDirtyValues then
    m.calculateValues ctx mv >>- fun (mv, s, _) =>
      .ret (if s = .OK then { mv with isDirtyValues := false } else mv, s, ())
  else .ret (mv, .OK, ())

/-- The functions of the FMU respect the relation `E` between instances and cannot see the logging
switches. -/
structure Respects (m : Model F D) (E : MV F D → MV F D → Prop) : Prop where
  trace : TraceFree E
  dirty : ∀ {mv mv'} b, E mv mv' → E { mv with isDirtyValues := b } { mv' with isDirtyValues := b }
  term : ∀ {mv mv'}, E mv mv' → mv'.terminateSimulation = mv.terminateSimulation
  netd : ∀ {mv mv'}, E mv mv' → mv'.nextEventTimeDefined = mv.nextEventTimeDefined
  net : ∀ {mv mv'}, E mv mv' → mv'.nextEventTime = mv.nextEventTime
  numX : ∀ {mv mv'}, E mv mv' → m.numContinuousStates mv' = m.numContinuousStates mv
  numZ : ∀ {mv mv'}, E mv mv' → m.numEventIndicators mv' = m.numEventIndicators mv
  info : ∀ {mv mv'}, E mv mv' → m.eventUpdate = none → mv'.eventInfo = mv.eventInfo
  start : ∀ {mv mv'} ctx ctx', CtxRel ctx ctx' → E mv mv' →
    E { m.setStartValues ctx mv with isDirtyValues := true }
      { m.setStartValues ctx' mv' with isDirtyValues := true }
  refresh : ∀ {mv mv' ctx ctx'}, CtxRel ctx ctx' → E mv mv' →
    MRel E (refreshM m ctx mv) (refreshM m ctx' mv')
  get : ∀ {mv mv' ctx ctx'} t vr p n i, CtxRel ctx ctx' → E mv mv' →
    MRel E (m.get t ctx mv vr p n i) (m.get t ctx' mv' vr p n i)
  set : ∀ {mv mv' ctx ctx'} t vr p n i, CtxRel ctx ctx' → E mv mv' →
    MRel E (m.set t ctx mv vr p n i) (m.set t ctx' mv' vr p n i)
  event : ∀ {mv mv' ctx ctx' eu}, m.eventUpdate = some eu → CtxRel ctx ctx' → E mv mv' →
    (eu ctx mv).Rel (fun x x' => E x.1 x'.1 ∧ x.2 = x'.2 ∧
      (x.2.1 ≠ .Error → x'.1.eventInfo = x.1.eventInfo)) (eu ctx' mv')
  getStates : ∀ {mv mv' ctx ctx'} p n, CtxRel ctx ctx' → E mv mv' →
    MRel E (m.getContinuousStates ctx mv p n) (m.getContinuousStates ctx' mv' p n)
  nominals : ∀ {mv mv' ctx ctx'} p n, CtxRel ctx ctx' → E mv mv' →
    MRel E (m.getNominals ctx mv p n) (m.getNominals ctx' mv' p n)
  setStates : ∀ {mv mv' ctx ctx'} p n, CtxRel ctx ctx' → E mv mv' →
    MRel E (m.setContinuousStates ctx mv p n) (m.setContinuousStates ctx' mv' p n)
  deriv : ∀ {mv mv' ctx ctx'} p n, CtxRel ctx ctx' → E mv mv' →
    MRel E (m.getDerivatives ctx mv p n) (m.getDerivatives ctx' mv' p n)
  indicators : ∀ {mv mv' ctx ctx'} p n, CtxRel ctx ctx' → E mv mv' →
    MRel E (m.getEventIndicators ctx mv p n) (m.getEventIndicators ctx' mv' p n)
  getStatesV : ∀ {mv mv' ctx ctx'} (l l' : List F) n, CtxRel ctx ctx' → E mv mv' →
    l.length = l'.length → VecRel E n l l'
      (m.getContinuousStates ctx mv (some l) n) (m.getContinuousStates ctx' mv' (some l') n)
  derivV : ∀ {mv mv' ctx ctx'} (l l' : List F) n, CtxRel ctx ctx' → E mv mv' →
    l.length = l'.length → VecRel E n l l'
      (m.getDerivatives ctx mv (some l) n) (m.getDerivatives ctx' mv' (some l') n)
  indicatorsV : ∀ {mv mv' ctx ctx'} (l l' : List F) n, CtxRel ctx ctx' → E mv mv' →
    l.length = l'.length → VecRel E n l l'
      (m.getEventIndicators ctx mv (some l) n) (m.getEventIndicators ctx' mv' (some l') n)
  setStatesV : ∀ {mv mv' ctx ctx'} (l l' : List F) n, CtxRel ctx ctx' → E mv mv' →
    l.take n = l'.take n → SetRel E
      (m.setContinuousStates ctx mv (some l) n) (m.setContinuousStates ctx' mv' (some l') n)
  indicatorsOK : 0 < m.maxNZ → ∀ ctx mv (l : List F), l.length = m.maxNZ → ∃ mv' q,
    m.getEventIndicators ctx mv (some l) (m.numEventIndicators mv) = .ret (mv', .OK, q)
  partialDeriv : ∀ {mv mv' ctx ctx'} u k o, CtxRel ctx ctx' → E mv mv' →
    MRel E (m.getPartialDerivative ctx mv u k o) (m.getPartialDerivative ctx' mv' u k o)
  outDeriv : ∀ {mv mv' ctx ctx' f} vr o v, m.getOutputDerivative = some f → CtxRel ctx ctx' →
    E mv mv' → MRel E (f ctx mv vr o v) (f ctx' mv' vr o v)
  activate : ∀ {mv mv' ctx ctx'} vr, CtxRel ctx ctx' → E mv mv' →
    MRel E (m.activateClock ctx mv vr) (m.activateClock ctx' mv' vr)
  getClock : ∀ {mv mv' ctx ctx'} vr o, CtxRel ctx ctx' → E mv mv' →
    MRel E (m.getClock ctx mv vr o) (m.getClock ctx' mv' vr o)
  getInterval : ∀ {mv mv' ctx ctx'} vr i q, CtxRel ctx ctx' → E mv mv' →
    MRel E (m.getInterval ctx mv vr i q) (m.getInterval ctx' mv' vr i q)
  partition : ∀ {mv mv' ctx ctx'} vr t, CtxRel ctx ctx' → E mv mv' →
    MRel E (m.activateModelPartition ctx mv vr t) (m.activateModelPartition ctx' mv' vr t)

end
end Verif
