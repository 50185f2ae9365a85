import Verif.Lemmas.Rel

/-!
# Observational equivalence of instances: the runtime

`CRel m E tT tC c c'`: the instances `c` and `c'` agree in everything later calls can observe.
The arrays `x`, `dx` and `z` are scratch space. Stop time and communication point matter only if
`tT`, the number of states and event indicators and the old event indicators only if `tC`.
`SRel m E τ` makes `tT` and `tC` depend on the mode.
-/

set_option linter.unusedSectionVars false

namespace Verif
variable {F D : Type}

/-- The arrays have the sizes given by `MAX_EVENT_INDICATORS` and `MAX_CONTINUOUS_STATES`. -/
structure Comp.Lens (m : Model F D) (c : Comp F D) : Prop where
  z : c.z.length = m.maxNZ
  prez : c.prez.length = m.maxNZ
  x : c.x.length = m.maxNX
  dx : c.dx.length = m.maxNX

/-- See the head of the file. -/
structure CRel (m : Model F D) (E : MV F D → MV F D → Prop) (tT tC : Prop) (c c' : Comp F D) :
    Prop where
  ctx : CtxRel c.ctx c'.ctx
  mv : E c.mv c'.mv
  start : c'.startTime = c.startTime
  steps : c'.nSteps = c.nSteps
  early : c'.earlyReturnAllowed = c.earlyReturnAllowed
  evm : c'.eventModeUsed = c.eventModeUsed
  lens : c.Lens m
  lens' : c'.Lens m
  times : tT → c'.stopTime = c.stopTime ∧ c'.nextCommunicationPoint = c.nextCommunicationPoint
  nx : tC → 0 < m.maxNX → c'.nx = c.nx
  nz : tC → 0 < m.maxNZ → c'.nz = c.nz ∧ c'.prez.take c.nz = c.prez.take c.nz

/-- In which modes times and configuration matter. -/
structure Tight where
  T : Mode → Prop
  C : Mode → Prop

/-- Everything matters in every mode. -/
def Tight.full : Tight := ⟨fun _ => True, fun _ => True⟩

/-- `CRel` with tightness given by the mode. -/
def SRel (m : Model F D) (E : MV F D → MV F D → Prop) (τ : Tight) (c c' : Comp F D) : Prop :=
  CRel m E (τ.T c.ctx.state) (τ.C c.ctx.state) c c'

/-- Errors and fatal errors may happen in every mode. -/
structure Tight.OK (τ : Tight) : Prop where
  T : ∀ s, τ.T .terminated → τ.T s
  C : ∀ s, τ.C .terminated → τ.C s
  T' : ∀ s, τ.T .startAndEnd → τ.T s
  C' : ∀ s, τ.C .startAndEnd → τ.C s

theorem Tight.full_ok : Tight.full.OK :=
  ⟨fun _ _ => trivial, fun _ _ => trivial, fun _ _ => trivial, fun _ _ => trivial⟩

section
variable {m : Model F D} {E : MV F D → MV F D → Prop} {τ : Tight} {c c' : Comp F D}
  {tT tC tT' tC' : Prop}

theorem CRel.mono (h : CRel m E tT tC c c') (h1 : tT' → tT) (h2 : tC' → tC) : CRel m E tT' tC' c c' :=
  { h with
    times := fun t => h.times (h1 t)
    nx := fun t => h.nx (h2 t)
    nz := fun t => h.nz (h2 t) }

theorem CRel.upd {mv mv' : MV F D} (h : CRel m E tT tC c c') (hm : E mv mv') :
    CRel m E tT tC { c with mv := mv } { c' with mv := mv' } :=
  ⟨h.ctx, hm, h.start, h.steps, h.early, h.evm,
    ⟨h.lens.z, h.lens.prez, h.lens.x, h.lens.dx⟩, ⟨h.lens'.z, h.lens'.prez, h.lens'.x, h.lens'.dx⟩,
    h.times, h.nx, h.nz⟩

theorem CRel.reCtx {x x' : Ctx F} (h : CRel m E tT tC c c') (hx : CtxRel x x') :
    CRel m E tT tC { c with ctx := x } { c' with ctx := x' } :=
  ⟨hx, h.mv, h.start, h.steps, h.early, h.evm,
    ⟨h.lens.z, h.lens.prez, h.lens.x, h.lens.dx⟩, ⟨h.lens'.z, h.lens'.prez, h.lens'.x, h.lens'.dx⟩,
    h.times, h.nx, h.nz⟩

theorem CtxRel.setState {x x' : Ctx F} (h : CtxRel x x') (s : Mode) :
    CtxRel { x with state := s } { x' with state := s } := by
  obtain ⟨a, b, l, rfl⟩ := h; exact ⟨a, b, l, rfl⟩

theorem CtxRel.setTime {x x' : Ctx F} (h : CtxRel x x') (t : F) :
    CtxRel { x with time := t } { x' with time := t } := by
  obtain ⟨a, b, l, rfl⟩ := h; exact ⟨a, b, l, rfl⟩

theorem CRel.setState (h : CRel m E tT tC c c') (s : Mode) :
    CRel m E tT tC (c.setState s) (c'.setState s) := h.reCtx (h.ctx.setState s)

theorem CRel.setTime (h : CRel m E tT tC c c') (t : F) :
    CRel m E tT tC (c.setTime t) (c'.setTime t) := h.reCtx (h.ctx.setTime t)

theorem SRel.state (h : SRel m E τ c c') : c'.ctx.state = c.ctx.state := CtxRel.state (CRel.ctx h)

theorem SRel.to (h : SRel m E τ c c') (s : Mode) (hT : τ.T s → τ.T c.ctx.state)
    (hC : τ.C s → τ.C c.ctx.state) : SRel m E τ (c.setState s) (c'.setState s) :=
  (CRel.setState h s).mono hT hC

theorem SRel.term (hτ : τ.OK) (h : SRel m E τ c c') :
    SRel m E τ (c.setState .terminated) (c'.setState .terminated) := h.to _ (hτ.T _) (hτ.C _)

theorem SRel.fatal (hτ : τ.OK) (h : SRel m E τ c c') :
    SRel m E τ (c.setState .startAndEnd) (c'.setState .startAndEnd) := h.to _ (hτ.T' _) (hτ.C' _)

theorem SRel.upd {mv mv' : MV F D} (h : SRel m E τ c c') (hm : E mv mv') :
    SRel m E τ { c with mv := mv } { c' with mv := mv' } := CRel.upd h hm

theorem SRel.ofFull (h : SRel m E Tight.full c c') : SRel m E τ c c' :=
  h.mono (fun _ => trivial) (fun _ => trivial)

theorem SRel.toFull (h : SRel m E τ c c') (hT : τ.T c.ctx.state) (hC : τ.C c.ctx.state) :
    SRel m E Tight.full c c' := h.mono (fun _ => hT) (fun _ => hC)

variable (hr : Respects m E)
include hr

theorem SRel.log (h : SRel m E τ c c') (msg : String) :
    SRel m E τ (c.logError msg) (c'.logError msg) := h.upd (hr.trace.log h.mv msg)

theorem SRel.dirty (h : SRel m E τ c c') (b : Bool) :
    SRel m E τ (c.setDirty b) (c'.setDirty b) := h.upd (hr.dirty b h.mv)

theorem SRel.invalidArg (hτ : τ.OK) (h : SRel m E τ c c') (msg : String) :
    SRel m E τ (c.invalidArg msg) (c'.invalidArg msg) := (h.term hτ).log hr msg
end

/-! ### Rules for results -/

section
variable {m : Model F D} {E : MV F D → MV F D → Prop} {S S' : Comp F D → Comp F D → Prop} {τ : Tight}
  {c c' : Comp F D} {α β : Type}

theorem RRel.ret {s : Status} {b : β} (h : S c c') : RRel S (.ret (c, s, b)) (.ret (c', s, b)) :=
  ⟨h, rfl⟩
theorem RRel.ret' {s s' : Status} {b b' : β} (h : S c c') (hs : s = s') (hb : b = b') :
    RRel S (.ret (c, s, b)) (.ret (c', s', b')) := by subst hs hb; exact ⟨h, rfl⟩
theorem RRel.ub : RRel (β := β) S .ub .ub := trivial
theorem RRel.hang : RRel (β := β) S .hang .hang := trivial

theorem RRel.mono {r r' : Res F D β} (h : RRel S r r') (hs : ∀ c c', S c c' → S' c c') :
    RRel S' r r' := Outcome.Rel.mono h fun _ _ h => ⟨hs _ _ h.1, h.2⟩

theorem RRel.bind {r : Outcome α} {k k' : α → Res F D β}
    (hk : ∀ a, r = .ret a → RRel S (k a) (k' a)) : RRel S (r >>- k) (r >>- k') :=
  Outcome.Rel.same hk

theorem RRel.then {r r' : Res F D α} {k k' : Comp F D × Status × α → Res F D β}
    (h : RRel S r r') (hk : ∀ c c' s a, S c c' → RRel S' (k (c, s, a)) (k' (c', s, a))) :
    RRel S' (r >>- k) (r' >>- k') :=
  Outcome.Rel.bind h fun a b hab => by
    obtain ⟨mv, s, x⟩ := a; obtain ⟨mv', x'⟩ := b
    obtain ⟨h1, h2⟩ := hab; simp only at h2; subst h2; exact hk _ _ _ _ h1

theorem RRel.ite {p p' : Prop} [Decidable p] [Decidable p'] (hp : p ↔ p') {a a' b b' : Res F D β}
    (h1 : p → RRel S a a') (h2 : ¬ p → RRel S b b') :
    RRel S (if p then a else b) (if p' then a' else b') := by
  by_cases h : p
  · rw [if_pos h, if_pos (hp.1 h)]; exact h1 h
  · rw [if_neg h, if_neg fun h' => h (hp.2 h')]; exact h2 h

theorem RRel.iteB {p p' : Bool} (hp : p' = p) {a a' b b' : Res F D β}
    (h1 : p = true → RRel S a a') (h2 : p = false → RRel S b b') :
    RRel S (if p then a else b) (if p' then a' else b') := by
  subst hp
  cases p'
  · exact h2 rfl
  · exact h1 rfl

theorem RRel.lift {r r' : MRes F D β} (hr : MRel E r r') (h : SRel m E τ c c') :
    RRel (SRel m E τ) (c.lift r) (c'.lift r') :=
  Outcome.Rel.bind hr fun a b hab => by
    obtain ⟨mv, s, x⟩ := a; obtain ⟨mv', x'⟩ := b
    obtain ⟨h1, h2⟩ := hab; simp only at h2; subst h2; exact ⟨h.upd h1, rfl⟩

theorem RRel.call (hτ : τ.OK) {st : Status} {r r' : Res F D α} {stop : α → β}
    {k k' : Comp F D → Status → α → Res F D β} (h : RRel (SRel m E τ) r r')
    (hk : ∀ c c' st a, SRel m E τ c c' → RRel (SRel m E τ) (k c st a) (k' c' st a)) :
    RRel (SRel m E τ) (call st r stop k) (call st r' stop k') := by
  refine RRel.then h fun c c' s a h => ?_
  simp only
  split
  · exact .ret h
  · exact .ret (h.term hτ)
  · exact .ret (h.fatal hτ)
  · exact hk _ _ _ _ h

theorem RRel.callLast (hτ : τ.OK) {r r' : Res F D α} {out : α → β}
    (h : RRel (SRel m E τ) r r') : RRel (SRel m E τ) (callLast r out) (callLast r' out) :=
  .call hτ h fun _ _ _ _ h => .ret h

theorem RRel.callCo {r r' : Res F D α} {stop : β} {k k' : Comp F D → α → Res F D β} (h : RRel S r r')
    (hk : ∀ c c' a, S c c' → RRel S (k c a) (k' c' a)) :
    RRel S (callCo r stop k) (callCo r' stop k') := by
  refine RRel.then h fun c c' s a h => ?_
  simp only
  split
  · exact .ret h
  · exact hk _ _ _ h

variable (hr : Respects m E) (hτ : τ.OK)
include hr hτ

theorem RRel.beginFunction {a a' : Bool} (ha : a' = a) {name : String} (h : SRel m E τ c c')
    {stop : β} {k k' : Comp F D → Res F D β} (hk : a = true → RRel (SRel m E τ) (k c) (k' c')) :
    RRel (SRel m E τ) (beginFunction a name c stop k) (beginFunction a' name c' stop k') := by
  unfold Verif.beginFunction
  refine .iteB ha hk fun _ => .ret ((h.log hr _).term hτ)

theorem RRel.begin2 {mask : Nat} {name : String} (h : SRel m E τ c c') {stop : β}
    {k k' : Comp F D → Res F D β}
    (hk : FMI2.allowed c.ctx mask = true → RRel (SRel m E τ) (k c) (k' c')) :
    RRel (SRel m E τ) (FMI2.begin mask name c stop k) (FMI2.begin mask name c' stop k') :=
  .beginFunction hr hτ (by simp [FMI2.allowed, h.state]) h hk

theorem RRel.begin3 {mask : Nat} {name : String} (h : SRel m E τ c c') {stop : β}
    {k k' : Comp F D → Res F D β}
    (hk : FMI3.allowed c.ctx mask = true → RRel (SRel m E τ) (k c) (k' c')) :
    RRel (SRel m E τ) (FMI3.begin mask name c stop k) (FMI3.begin mask name c' stop k') :=
  .beginFunction hr hτ (by simp [FMI3.allowed, h.state]) h hk

theorem RRel.fail2 (h : SRel m E τ c c') {msg : String} {stop : β} :
    RRel (SRel m E τ) (FMI2.fail c msg stop) (FMI2.fail c' msg stop) := .ret ((h.log hr _).term hτ)

theorem RRel.fail3 (h : SRel m E τ c c') {msg : String} {stop : β} :
    RRel (SRel m E τ) (FMI3.fail c msg stop) (FMI3.fail c' msg stop) := .ret ((h.log hr _).term hτ)

theorem RRel.nonNull {p : Option α} (h : SRel m E τ c c') {stop : β} {k k' : Res F D β}
    (hk : RRel (SRel m E τ) k k') :
    RRel (SRel m E τ) (assertNonNull p c stop k) (assertNonNull p c' stop k') := by
  unfold assertNonNull
  split
  · exact .ret ((h.log hr _).term hτ)
  · exact hk

omit hr hτ in
theorem refresh_eq (m : Model F D) (st : Status) (c : Comp F D) (stop : β)
    (k : Comp F D → Status → Res F D β) (hst : st ≠ .Discard ∧ st ≠ .Error ∧ st ≠ .Fatal) :
    (∀ c', refreshM m c.ctx c.mv = .ret (c'.mv, .OK, ()) → c' = { c with mv := c'.mv } →
      refresh m st c stop k = k c' st) ∧
    (∀ mv s, s ≠ .OK → refreshM m c.ctx c.mv = .ret (mv, s, ()) → refresh m st c stop k =
      call st (.ret ({ c with mv := mv }, s, ())) (fun _ => stop) fun c st _ => k (c.setDirty false) st) ∧
    (refreshM m c.ctx c.mv = .ub → refresh m st c stop k = .ub) ∧
    (refreshM m c.ctx c.mv = .hang → refresh m st c stop k = .hang) := by
  obtain ⟨h1, h2, h3⟩ := hst
  unfold refresh refreshM
  split
  · refine ⟨?_, ?_, ?_, ?_⟩
    · intro c' e e'
      obtain ⟨⟨mv, s, u⟩, e1, e2⟩ := Outcome.bind_eq_ret.1 e
      simp only [Outcome.ret.injEq, Prod.mk.injEq] at e2
      obtain ⟨e2, e3, -⟩ := e2
      subst e3
      rw [if_pos rfl] at e2
      simp only [Comp.lift, e1, Outcome.ret_bind, call, Status.rank, Nat.not_lt_zero, gt_iff_lt, if_false]
      rw [e', ← e2]
      cases st <;> first | rfl | contradiction
    · intro mv s hs e
      obtain ⟨⟨mv, s, u⟩, e1, e2⟩ := Outcome.bind_eq_ret.1 e
      simp only [Outcome.ret.injEq, Prod.mk.injEq] at e2
      obtain ⟨e2, e3, -⟩ := e2
      subst e3
      rw [if_neg hs] at e2
      subst e2
      simp [Comp.lift, e1]
    · intro e
      cases e1 : m.calculateValues c.ctx c.mv <;> simp [e1, Comp.lift, call] at e ⊢
    · intro e
      cases e1 : m.calculateValues c.ctx c.mv <;> simp [e1, Comp.lift, call] at e ⊢
  · refine ⟨?_, ?_, ?_, ?_⟩
    · intro c' e e'
      simp only [Outcome.ret.injEq, Prod.mk.injEq] at e
      rw [e', ← e.1]
    · intro mv s hs e
      simp only [Outcome.ret.injEq, Prod.mk.injEq] at e
      exact absurd e.2.1.symm hs
    · intro e; cases e
    · intro e; cases e

theorem RRel.refresh {stop : β} {k k' : Comp F D → Status → Res F D β} (h : SRel m E τ c c')
    (hk : ∀ d d' st, SRel m E τ d d' → d.ctx = c.ctx → RRel (SRel m E τ) (k d st) (k' d' st)) :
    RRel (SRel m E τ) (refresh m .OK c stop k) (refresh m .OK c' stop k') := by
  have hst : Status.OK ≠ .Discard ∧ Status.OK ≠ .Error ∧ Status.OK ≠ .Fatal := by decide
  have h0 := hr.refresh h.ctx h.mv
  have e := refresh_eq m .OK c stop k hst
  have e' := refresh_eq m .OK c' stop k' hst
  cases q : refreshM m c.ctx c.mv with
  | ret x =>
    cases q' : refreshM m c'.ctx c'.mv with
    | ret x' =>
      rw [q, q'] at h0
      obtain ⟨mv, s, u⟩ := x; obtain ⟨mv', s', u'⟩ := x'
      obtain ⟨h1, h2⟩ := h0
      simp only [Prod.mk.injEq] at h1 h2
      obtain ⟨rfl, -⟩ := h2
      by_cases hs : s = .OK
      · subst hs
        rw [e.1 { c with mv := mv } q rfl, e'.1 { c' with mv := mv' } q' rfl]
        exact hk _ _ _ (h.upd h1) rfl
      · rw [e.2.1 mv s hs q, e'.2.1 mv' s hs q']
        have h2 := h.upd h1
        simp only [Verif.call, Outcome.ret_bind]
        split
        · exact .ret h2
        · exact .ret (h2.term hτ)
        · exact .ret (h2.fatal hτ)
        · exact hk _ _ _ (h2.dirty hr _) rfl
    | ub => rw [q, q'] at h0; exact h0.elim
    | hang => rw [q, q'] at h0; exact h0.elim
  | ub =>
    cases q' : refreshM m c'.ctx c'.mv with
    | ret x => rw [q, q'] at h0; exact h0.elim
    | ub => rw [e.2.2.1 q, e'.2.2.1 q']; trivial
    | hang => rw [q, q'] at h0; exact h0.elim
  | hang =>
    cases q' : refreshM m c'.ctx c'.mv with
    | ret x => rw [q, q'] at h0; exact h0.elim
    | ub => rw [q, q'] at h0; exact h0.elim
    | hang => rw [e.2.2.2 q, e'.2.2.2 q']; trivial

/-! ### Loops -/

theorem RRel.getLoop {t : VType} {vr : Ptr Nat} {nv : Nat} : ∀ {n i : Nat} {c c' : Comp F D} {st : Status}
    {p : Ptr (t.Val F)} {ix : Nat}, SRel m E τ c c' →
    RRel (SRel m E τ) (getLoop m t vr nv n i c st p ix) (getLoop m t vr nv n i c' st p ix) := by
  intro n
  induction n with
  | zero => intro i c c' st p ix h; exact .ret h
  | succ n ih =>
    intro i c c' st p ix h
    unfold Verif.getLoop
    exact .bind fun _ _ => .call hτ (.lift (hr.get _ _ _ _ _ h.ctx h.mv) h) fun _ _ _ _ h => ih h

theorem RRel.setLoop {t : VType} {vr : Ptr Nat} {p : Ptr (t.Val F)} {nv : Nat} :
    ∀ {n i : Nat} {c c' : Comp F D} {st : Status} {ix : Nat}, SRel m E τ c c' →
    RRel (SRel m E τ) (setLoop m t vr p nv n i c st ix) (setLoop m t vr p nv n i c' st ix) := by
  intro n
  induction n with
  | zero => intro i c c' st ix h; exact .ret h
  | succ n ih =>
    intro i c c' st ix h
    unfold Verif.setLoop
    exact .bind fun _ _ => .call hτ (.lift (hr.set _ _ _ _ _ h.ctx h.mv) h) fun _ _ _ _ h => ih h

variable [Arith F]

theorem RRel.derivInner {pair : Nat → Outcome (Nat × Nat)} {seed : Ptr F} :
    ∀ {n j : Nat} {c c' : Comp F D} {st : Status} {acc : F}, SRel m E τ c c' →
    RRel (SRel m E τ) (derivInner m pair seed n j c st acc) (derivInner m pair seed n j c' st acc) := by
  intro n
  induction n with
  | zero => intro j c c' st acc h; exact .ret h
  | succ n ih =>
    intro j c c' st acc h
    unfold Verif.derivInner
    exact .bind fun _ _ => .call hτ (.lift (hr.partialDeriv _ _ _ h.ctx h.mv) h)
      fun _ _ _ _ h => .bind fun _ _ => ih h

theorem RRel.derivOuter {pair : Nat → Nat → Outcome (Nat × Nat)} {seed : Ptr F} {nI : Nat} :
    ∀ {n i : Nat} {c c' : Comp F D} {st : Status} {out : Ptr F}, SRel m E τ c c' →
    RRel (SRel m E τ) (derivOuter m pair seed nI n i c st out)
      (derivOuter m pair seed nI n i c' st out) := by
  intro n
  induction n with
  | zero => intro j c c' st acc h; exact .ret h
  | succ n ih =>
    intro j c c' st acc h
    unfold Verif.derivOuter
    refine .bind fun _ _ => .then (.derivInner hr hτ h) fun _ _ _ _ h => .bind fun _ _ => ?_
    exact .ite Iff.rfl (fun _ => .ret h) fun _ => ih h

omit [Arith F] in
theorem RRel.outputDerivLoop {f : Ctx F → MV F D → Nat → Int → F → MRes F D F}
    (hf : m.getOutputDerivative = some f) {vr : Ptr Nat} {order : Ptr Int} :
    ∀ {n i : Nat} {c c' : Comp F D} {st : Status} {out : Ptr F}, SRel m E τ c c' →
    RRel (SRel m E τ) (outputDerivLoop f vr order n i c st out)
      (outputDerivLoop f vr order n i c' st out) := by
  intro n
  induction n with
  | zero => intro j c c' st acc h; exact .ret h
  | succ n ih =>
    intro j c c' st acc h
    unfold Verif.outputDerivLoop
    refine .bind fun _ _ => .bind fun _ _ => .bind fun _ _ =>
      .then (.lift (hr.outDeriv _ _ _ hf h.ctx h.mv) h) fun _ _ _ _ h => .bind fun _ _ => ?_
    exact .call hτ (.ret h) fun _ _ _ _ h => ih h

omit [Arith F] in
theorem RRel.setDebugLoggingLoop {on : Bool} {cats : Ptr (Option String)} :
    ∀ {n i : Nat} {c c' : Comp F D}, SRel m E τ c c' →
    RRel (SRel m E τ) (setDebugLoggingLoop on cats n i c) (setDebugLoggingLoop on cats n i c') := by
  intro n
  induction n with
  | zero => intro i c c' h; exact .ret h
  | succ n ih =>
    intro i c c' h
    unfold Verif.setDebugLoggingLoop
    refine .bind fun a _ => ?_
    cases a with
    | none => exact .ret (h.log hr _)
    | some s =>
      simp only
      split
      · refine ih (CRel.reCtx h ?_)
        obtain ⟨a, b, l, e⟩ := CRel.ctx h; rw [e]; exact ⟨a, on, l, rfl⟩
      · split
        · refine ih (CRel.reCtx h ?_)
          obtain ⟨a, b, l, e⟩ := CRel.ctx h; rw [e]; exact ⟨on, b, l, rfl⟩
        · exact .ret (h.log hr _)

omit [Arith F] in
theorem RRel.setDebugLogging {on : Bool} {n : Nat} {cats : Ptr (Option String)} (h : SRel m E τ c c') :
    RRel (SRel m E τ) (setDebugLogging c on n cats) (setDebugLogging c' on n cats) := by
  unfold Verif.setDebugLogging
  split
  · split
    · exact .ret (h.log hr _)
    · exact .setDebugLoggingLoop hr hτ h
  · refine .ret (CRel.reCtx h ?_)
    obtain ⟨a, b, l, e⟩ := CRel.ctx h; rw [e]; exact ⟨on, on, l, rfl⟩

end

/-! ### Configuration, reset, saved states -/

section
variable {m : Model F D} {E : MV F D → MV F D → Prop} {τ : Tight} {c c' : Comp F D} {tT tC : Prop}

theorem configurate_rel (hr : Respects m E) (h : CRel m E tT tC c c') :
    RRel (fun d d' => CRel m E tT True d d' ∧ d.ctx = c.ctx) (configurate m c) (configurate m c') := by
  unfold configurate
  simp only
  by_cases hz : 0 < m.maxNZ
  · have hz' : m.maxNZ > 0 := hz
    simp only [if_pos hz']
    have en := hr.numZ h.mv
    have hV := hr.indicatorsV c.prez c'.prez (m.numEventIndicators c.mv) h.ctx h.mv
      (by rw [h.lens.prez, h.lens'.prez])
    obtain ⟨mv1, q1, e1⟩ := hr.indicatorsOK hz c.ctx c.mv c.prez h.lens.prez
    obtain ⟨mv2, q2, e2⟩ := hr.indicatorsOK hz c'.ctx c'.mv c'.prez h.lens'.prez
    rw [en] at e2 ⊢
    rw [e1, e2] at hV
    simp only [VecRel, Outcome.rel_ret] at hV
    obtain ⟨hE, -, hq⟩ := hV
    obtain ⟨q, q', rfl, rfl, hl, hl', ht⟩ := hq
    replace ht := ht (.inl trivial)
    simp only [callCo, Comp.lift, e1, e2, Outcome.ret_bind, ne_eq, not_true_eq_false, if_false,
      Option.getD_some]
    have key : CRel m E tT True
        { c with mv := mv1, nz := m.numEventIndicators c.mv, prez := q,
                 nx := if m.maxNX > 0 then m.numContinuousStates mv1 else c.nx }
        { c' with mv := mv2, nz := m.numEventIndicators c.mv, prez := q',
                  nx := if m.maxNX > 0 then m.numContinuousStates mv2 else c'.nx } := by
      refine ⟨h.ctx, hE, h.start, h.steps, h.early, h.evm, ⟨h.lens.z, hl.trans h.lens.prez,
        h.lens.x, h.lens.dx⟩, ⟨h.lens'.z, hl'.trans h.lens.prez, h.lens'.x, h.lens'.dx⟩, h.times,
        ?_, ?_⟩
      · intro _ hx
        have hx' : m.maxNX > 0 := hx
        simp [hx', hr.numX hE]
      · intro _ _; exact ⟨rfl, ht.symm⟩
    by_cases hx : m.maxNX > 0
    · simp only [if_pos hx] at key ⊢; exact ⟨⟨key, rfl⟩, rfl⟩
    · simp only [if_neg hx] at key ⊢; exact ⟨⟨key, rfl⟩, rfl⟩
  · have hz' : ¬ m.maxNZ > 0 := hz
    simp only [if_neg hz']
    have key : CRel m E tT True
        { c with nx := if m.maxNX > 0 then m.numContinuousStates c.mv else c.nx }
        { c' with nx := if m.maxNX > 0 then m.numContinuousStates c'.mv else c'.nx } := by
      refine ⟨h.ctx, h.mv, h.start, h.steps, h.early, h.evm, ⟨h.lens.z, h.lens.prez,
        h.lens.x, h.lens.dx⟩, ⟨h.lens'.z, h.lens'.prez, h.lens'.x, h.lens'.dx⟩, h.times, ?_, ?_⟩
      · intro _ hx
        have hx' : m.maxNX > 0 := hx
        simp [hx', hr.numX h.mv]
      · intro _ hx; exact absurd hx hz
    by_cases hx : m.maxNX > 0
    · simp only [if_pos hx] at key ⊢; exact ⟨⟨key, rfl⟩, rfl⟩
    · simp only [if_neg hx] at key ⊢; exact ⟨⟨key, rfl⟩, rfl⟩

/-- After `configurate` the instances are configured alike. -/
theorem configurate_srel (hr : Respects m E) (s : Mode) (h : SRel m E τ c c')
    (hT : τ.T s → τ.T c.ctx.state) :
    RRel (SRel m E τ) (configurate m (c.setState s)) (configurate m (c'.setState s)) := by
  refine (configurate_rel hr (CRel.setState h s)).mono ?_
  rintro d d' ⟨h1, h2⟩
  refine h1.mono (fun t => hT ?_) fun _ => trivial
  simpa [h2, Comp.setState] using t

theorem reset_rel [Arith F] (hr : Respects m E) (h : SRel m E τ c c') (hT : τ.T .instantiated → τ.T c.ctx.state)
    (hC : τ.C .instantiated → τ.C c.ctx.state) : RRel (SRel m E τ) (reset m c) (reset m c') := by
  have hc : CtxRel { c.ctx with state := .instantiated, time := (Arith.lit 0 : F) }
      { c'.ctx with state := .instantiated, time := Arith.lit 0 } := by
    obtain ⟨a, b, l, e⟩ := CRel.ctx h; rw [e]; exact ⟨a, b, l, rfl⟩
  have h1 := hr.start _ _ hc h.mv
  refine ⟨?_, rfl⟩
  exact ⟨hc, h1, rfl, rfl, h.early, h.evm,
    ⟨h.lens.z, h.lens.prez, h.lens.x, h.lens.dx⟩, ⟨h.lens'.z, h.lens'.prez, h.lens'.x, h.lens'.dx⟩,
    fun t => h.times (hT t), fun t => h.nx (hC t), fun t => h.nz (hC t)⟩

theorem copyN_length {l l' : List F} (h : l.length = l'.length) (n : Nat) :
    (copyN l l' n).length = l.length := by
  simp [copyN, h]; omega

theorem copyN_take {l l' : List F} (h : l.length = l'.length) (n : Nat) :
    (copyN l l' n).take n = l'.take n := by
  unfold copyN
  by_cases hn : n ≤ l'.length
  · simp [hn]
  · have : l.drop n = [] := by simp; omega
    rw [this, List.append_nil, List.take_take, Nat.min_self]

theorem setFMUState_lens {s : Comp F D} (h : c.Lens m) (hs : s.Lens m) : (setFMUState m c s).Lens m := by
  refine ⟨?_, ?_, ?_, ?_⟩ <;> simp only [setFMUState] <;> split
  · rw [copyN_length (h.z.trans hs.z.symm), h.z]
  · exact h.z
  · rw [copyN_length (h.prez.trans hs.prez.symm), h.prez]
  · exact h.prez
  · rw [copyN_length (h.x.trans hs.x.symm), h.x]
  · exact h.x
  · rw [copyN_length (h.dx.trans hs.dx.symm), h.dx]
  · exact h.dx

/-- Restoring related states into instances with related contexts. -/
theorem setFMUState_rel (hr : Respects m E) {s s' : Comp F D} (hc : CtxRel c.ctx c'.ctx)
    (hl : c.Lens m) (hl' : c'.Lens m) (hs : SRel m E τ s s') :
    SRel m E τ (setFMUState m c s) (setFMUState m c' s') := by
  have hm : E { s.mv with trace := c.mv.trace } { s'.mv with trace := c'.mv.trace } :=
    hr.trace _ _ _ _ hs.mv
  refine ⟨?_, hm, hs.start, hs.steps, hs.early, hs.evm, setFMUState_lens hl hs.lens,
    setFMUState_lens hl' hs.lens', hs.times, ?_, ?_⟩
  · have e1 := hs.ctx.state
    have e2 := hs.ctx.time
    obtain ⟨a, b, l, e⟩ := hc
    refine ⟨a, b, l, ?_⟩
    simp [setFMUState, e, e1, e2]
  · intro t hx
    have hx' : m.maxNX > 0 := hx
    simpa [setFMUState, hx'] using hs.nx t hx
  · intro t hz
    have hz' : m.maxNZ > 0 := hz
    obtain ⟨h1, h2⟩ := hs.nz t hz
    refine ⟨by simpa [setFMUState, hz'] using h1, ?_⟩
    simp only [setFMUState, if_pos hz', h1]
    rw [copyN_take (hl'.prez.trans hs.lens'.prez.symm), copyN_take (hl.prez.trans hs.lens.prez.symm), h2]

/-- A restored state is equivalent to the saved one. -/
theorem setFMUState_self (hr : Respects m E) {s : Comp F D}
    (hc : CtxRel s.ctx { c.ctx with time := s.ctx.time, state := s.ctx.state })
    (hl : c.Lens m) (hs : SRel m E Tight.full s s) :
    SRel m E Tight.full s (setFMUState m c s) := by
  have hm : E s.mv { s.mv with trace := c.mv.trace } := hr.trace s.mv s.mv s.mv.trace c.mv.trace hs.mv
  refine ⟨hc, hm, rfl, rfl, rfl, rfl, hs.lens, setFMUState_lens hl hs.lens, fun _ => ⟨rfl, rfl⟩, ?_, ?_⟩
  · intro t hx
    have hx' : m.maxNX > 0 := hx
    simp [setFMUState, hx']
  · intro t hz
    have hz' : m.maxNZ > 0 := hz
    refine ⟨by simp [setFMUState, hz'], ?_⟩
    simp only [setFMUState, if_pos hz']
    rw [copyN_take (hl.prez.trans hs.lens.prez.symm)]

end

/-! ### The internal solver -/

section
variable [Arith F] {m : Model F D} {E : MV F D → MV F D → Prop} {c c' : Comp F D}

local notation "Fu" => SRel m E Tight.full

theorem eulerUpdate_take {h : F} : ∀ {n : Nat} {x x' d d' : List F}, x.take n = x'.take n →
    d.take n = d'.take n → (eulerUpdate h n x d).take n = (eulerUpdate h n x' d').take n := by
  intro n
  induction n with
  | zero => intros; simp
  | succ n ih =>
    intro x x' d d' hx hd
    cases x with
    | nil =>
      cases x' with
      | nil => rfl
      | cons a x' => simp at hx
    | cons a x =>
      cases x' with
      | nil => simp at hx
      | cons a' x' =>
        simp only [List.take_succ_cons, List.cons.injEq] at hx
        obtain ⟨rfl, hx⟩ := hx
        cases d with
        | nil =>
          cases d' with
          | nil => simp [eulerUpdate, hx]
          | cons b d' => simp at hd
        | cons b d =>
          cases d' with
          | nil => simp at hd
          | cons b' d' =>
            simp only [List.take_succ_cons, List.cons.injEq] at hd
            obtain ⟨rfl, hd⟩ := hd
            simp [eulerUpdate, ih hx hd]

theorem eulerUpdate_length {h : F} : ∀ {n : Nat} {x d : List F},
    (eulerUpdate h n x d).length = x.length := by
  intro n
  induction n with
  | zero => intros; rfl
  | succ n ih =>
    intro x d
    cases x <;> cases d <;> simp [eulerUpdate, ih]

theorem zeroCrossing_take : ∀ {n : Nat} {p p' z z' : List F}, p.take n = p'.take n →
    z.take n = z'.take n → zeroCrossing n p z = zeroCrossing n p' z' := by
  intro n
  induction n with
  | zero => intros; rfl
  | succ n ih =>
    intro x x' d d' hx hd
    cases x with
    | nil =>
      cases x' with
      | nil => simp [zeroCrossing]
      | cons a x' => simp at hx
    | cons a x =>
      cases x' with
      | nil => simp at hx
      | cons a' x' =>
        simp only [List.take_succ_cons, List.cons.injEq] at hx
        obtain ⟨rfl, hx⟩ := hx
        cases d with
        | nil =>
          cases d' with
          | nil => simp [zeroCrossing]
          | cons b d' => simp at hd
        | cons b d =>
          cases d' with
          | nil => simp at hd
          | cons b' d' =>
            simp only [List.take_succ_cons, List.cons.injEq] at hd
            obtain ⟨rfl, hd⟩ := hd
            simp [zeroCrossing, ih hx hd]

/-- Call a vector getter on scratch arrays. -/
theorem vec_callCo {β : Type} {n : Nat} {l l' : List F} {r r' : MRes F D (Ptr F)}
    (hv : VecRel E n l l' r r') (h : Fu c c') {stop : β} {k k' : Comp F D → Ptr F → Res F D β}
    (hk : ∀ mv mv' q q', E mv mv' → q.length = l.length → q'.length = l.length →
      q.take n = q'.take n →
      RRel Fu (k { c with mv := mv } (some q)) (k' { c' with mv := mv' } (some q'))) :
    RRel Fu (callCo (c.lift r) stop k) (callCo (c'.lift r') stop k') := by
  unfold callCo Comp.lift
  rw [Outcome.bind_assoc, Outcome.bind_assoc]
  refine Outcome.Rel.bind hv ?_
  rintro ⟨mv, s, p⟩ ⟨mv', s', p'⟩ ⟨h1, h2, h3⟩
  simp only at h1 h2 h3
  subst h2
  simp only [Outcome.ret_bind]
  split
  · exact RRel.ret (h.upd h1)
  · next hs =>
    simp only [ne_eq, Decidable.not_not] at hs
    obtain ⟨q, q', rfl, rfl, hl, hl', ht⟩ := h3
    exact hk _ _ _ _ h1 hl hl' (ht (.inl hs))

theorem set_callCo {β : Type} {r r' : MRes F D (Ptr F)} (hv : SetRel E r r')
    (h : Fu c c') {stop : β} {k k' : Comp F D → Ptr F → Res F D β}
    (hk : ∀ mv mv' p p', E mv mv' → RRel Fu (k { c with mv := mv } p) (k' { c' with mv := mv' } p')) :
    RRel Fu (callCo (c.lift r) stop k) (callCo (c'.lift r') stop k') := by
  unfold callCo Comp.lift
  rw [Outcome.bind_assoc, Outcome.bind_assoc]
  refine Outcome.Rel.bind hv ?_
  rintro ⟨mv, s, p⟩ ⟨mv', s', p'⟩ ⟨h1, h2⟩
  simp only at h1 h2
  subst h2
  simp only [Outcome.ret_bind]
  split
  · exact RRel.ret (h.upd h1)
  · exact hk _ _ _ _ h1

theorem SRel.scratch (h : Fu c c') {x x' dx dx' z z' : List F} (hx : x.length = m.maxNX)
    (hx' : x'.length = m.maxNX) (hd : dx.length = m.maxNX) (hd' : dx'.length = m.maxNX)
    (hz : z.length = m.maxNZ) (hz' : z'.length = m.maxNZ) :
    Fu { c with x := x, dx := dx, z := z } { c' with x := x', dx := dx', z := z' } :=
  ⟨h.ctx, h.mv, h.start, h.steps, h.early, h.evm, ⟨hz, h.lens.prez, hx, hd⟩, ⟨hz', h.lens'.prez, hx', hd'⟩,
    h.times, h.nx, h.nz⟩

theorem eulerStep_rel (hr : Respects m E) (h : Fu c c') : RRel Fu (eulerStep m c) (eulerStep m c') := by
  unfold eulerStep
  by_cases hx : 0 < m.maxNX
  · have en := h.nx trivial hx
    rw [en]
    by_cases hn : (decide (m.maxNX > 0) && decide (c.nx > 0)) = true
    · rw [if_pos hn, if_pos hn]
      refine vec_callCo (hr.getStatesV c.x c'.x c.nx h.ctx h.mv (by rw [h.lens.x, h.lens'.x])) h ?_
      intro mv mv' q q' hm hl hl' ht
      rw [h.lens.x] at hl hl'
      have h1 : Fu { c with mv := mv, x := q } { c' with mv := mv', x := q' } :=
        (h.upd hm).scratch hl hl' h.lens.dx h.lens'.dx h.lens.z h.lens'.z
      have hv1 : VecRel E c.nx c.dx c'.dx (m.getDerivatives c.ctx mv (some c.dx) c.nx)
          (m.getDerivatives c'.ctx mv' (some c'.dx) c'.nx) := by
        rw [en]
        exact hr.derivV c.dx c'.dx c.nx h.ctx hm (by rw [h.lens.dx, h.lens'.dx])
      refine vec_callCo (c := { c with mv := mv, x := q }) (c' := { c' with mv := mv', x := q' })
        hv1 h1 ?_
      intro mv mv' d d' hm hld hld' htd
      rw [h.lens.dx] at hld hld'
      have h2 : Fu { c with mv := mv, x := eulerUpdate m.h c.nx q d, dx := d }
          { c' with mv := mv', x := eulerUpdate m.h c'.nx q' d', dx := d' } :=
        (h1.upd hm).scratch (by rw [eulerUpdate_length, hl]) (by rw [eulerUpdate_length, hl']) hld hld'
          h.lens.z h.lens'.z
      have hs : SetRel E (m.setContinuousStates c.ctx mv (some (eulerUpdate m.h c.nx q d)) c.nx)
          (m.setContinuousStates c'.ctx mv' (some (eulerUpdate m.h c'.nx q' d')) c'.nx) := by
        rw [en]
        exact hr.setStatesV _ _ c.nx h.ctx hm (eulerUpdate_take ht htd)
      exact set_callCo (c := { c with mv := mv, x := eulerUpdate m.h c.nx q d, dx := d })
        (c' := { c' with mv := mv', x := eulerUpdate m.h c'.nx q' d', dx := d' }) hs h2
        fun mv mv' p p' hm => RRel.ret (h2.upd hm)
    · rw [if_neg hn, if_neg hn]; exact RRel.ret h
  · have : decide (m.maxNX > 0) = false := by simpa using hx
    simp only [this, Bool.false_and, Bool.false_eq_true, if_false]
    exact RRel.ret h

theorem advanceTime_rel (h : Fu c c') : Fu (advanceTime m c) (advanceTime m c') := by
  unfold advanceTime
  have e := h.steps
  have e' := h.start
  have h1 : Fu { c with nSteps := (c.nSteps + 1) % 2 ^ 64 } { c' with nSteps := (c'.nSteps + 1) % 2 ^ 64 } :=
    ⟨h.ctx, h.mv, h.start, by simp [e], h.early, h.evm,
      ⟨h.lens.z, h.lens.prez, h.lens.x, h.lens.dx⟩, ⟨h.lens'.z, h.lens'.prez, h.lens'.x, h.lens'.dx⟩,
      h.times, h.nx, h.nz⟩
  have h2 := CRel.setTime h1 (c.startTime +. Arith.lit (((c.nSteps + 1) % 2 ^ 64 : Nat) : Rat) *. m.h)
  simp only [e, e'] at h2 ⊢
  exact h2

theorem detectStateEvent_rel (hr : Respects m E) (h : Fu c c') :
    RRel Fu (detectStateEvent m c) (detectStateEvent m c') := by
  unfold detectStateEvent
  by_cases hz : 0 < m.maxNZ
  · obtain ⟨en, ep⟩ := h.nz trivial hz
    rw [en]
    by_cases hn : (decide (m.maxNZ > 0) && decide (c.nz > 0)) = true
    · rw [if_pos hn, if_pos hn]
      refine vec_callCo (hr.indicatorsV c.z c'.z c.nz h.ctx h.mv (by rw [h.lens.z, h.lens'.z])) h ?_
      intro mv mv' q q' hm hl hl' ht
      rw [h.lens.z] at hl hl'
      simp only [Option.getD_some]
      rw [en]
      refine RRel.ret' ?_ rfl (zeroCrossing_take ep.symm ht)
      have h1 := h.upd hm
      refine ⟨h1.ctx, hm, h.start, h.steps, h.early, h.evm,
        ⟨hl, ?_, h.lens.x, h.lens.dx⟩, ⟨hl', ?_, h.lens'.x, h.lens'.dx⟩, h.times, h.nx, ?_⟩
      · simp only; rw [copyN_length (h.lens.prez.trans hl.symm)]; exact h.lens.prez
      · simp only; rw [copyN_length (h.lens'.prez.trans hl'.symm)]; exact h.lens'.prez
      · intro _ _
        refine ⟨rfl, ?_⟩
        simp only
        rw [copyN_take (h.lens.prez.trans hl.symm), copyN_take (h.lens'.prez.trans hl'.symm), ht]
    · rw [if_neg hn, if_neg hn]; exact RRel.ret h
  · have : decide (m.maxNZ > 0) = false := by simpa using hz
    simp only [this, Bool.false_and, Bool.false_eq_true, if_false]
    exact RRel.ret h

theorem doFixedStep_rel (hr : Respects m E) (h : Fu c c') :
    RRel Fu (doFixedStep m c) (doFixedStep m c') := by
  unfold doFixedStep
  refine RRel.callCo (eulerStep_rel hr h) fun c c' _ h => ?_
  refine RRel.callCo (detectStateEvent_rel hr (advanceTime_rel h)) fun c c' ev h => ?_
  have e1 := hr.netd h.mv
  have e2 := hr.net h.mv
  have e3 := h.ctx.time
  have key : ∀ t t', Fu { c with mv := { c.mv with trace := t } } { c' with mv := { c'.mv with trace := t' } } :=
    fun t t' => h.upd (hr.trace _ _ _ _ h.mv)
  refine RRel.ret' ?_ rfl (by rw [e1, e2, e3])
  split <;> split
  · exact key _ _
  · exact key _ c'.mv.trace
  · exact key c.mv.trace _
  · exact h

end
end Verif
