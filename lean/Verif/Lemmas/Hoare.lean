import Verif.FMI3

/-!
# Partial-correctness rules for the model

`Outcome.All r Q`: if `r` returns, the result satisfies `Q`. `Body P r`: an API function body
that stays inside `P`, and whose only other effect is to terminate the instance on `Error`.
-/

namespace Verif

/-- Whenever `r` returns a value, it satisfies `Q`. -/
def Outcome.All {α : Type} (r : Outcome α) (Q : α → Prop) : Prop := ∀ a, r = .ret a → Q a

namespace Outcome
variable {α β : Type} {Q Q' : α → Prop}

@[simp] theorem all_ret {a : α} : (Outcome.ret a).All Q ↔ Q a :=
  ⟨fun h => h a rfl, fun h b e => by cases e; exact h⟩
@[simp] theorem all_ub : (Outcome.ub : Outcome α).All Q ↔ True :=
  ⟨fun _ => trivial, fun _ _ e => by cases e⟩
@[simp] theorem all_hang : (Outcome.hang : Outcome α).All Q ↔ True :=
  ⟨fun _ => trivial, fun _ _ e => by cases e⟩
theorem all_bind {r : Outcome β} {f : β → Outcome α} :
    (r >>- f).All Q ↔ r.All fun b => (f b).All Q := by
  cases r <;> simp
theorem All.mono {r : Outcome α} (h : r.All Q) (hq : ∀ a, Q a → Q' a) : r.All Q' :=
  fun a e => hq a (h a e)
theorem All.bind {r : Outcome β} {f : β → Outcome α} {R : β → Prop} (h : r.All R)
    (hf : ∀ b, R b → (f b).All Q) : (r >>- f).All Q :=
  all_bind.2 (h.mono hf)
theorem all_true {r : Outcome α} : r.All fun _ => True := fun _ _ => trivial
theorem All.of_eq {r : Outcome α} {a : α} (h : r.All Q) (e : r = .ret a) : Q a := h a e
theorem all_self {r : Outcome α} : r.All fun a => r = .ret a := fun _ e => e
end Outcome

/-- The functions of `model.c`. -/
inductive MFn
  | calc | get | set | event | getStates | nominals | setStates | deriv | indicators
  | partialDeriv | outDeriv | activate | getClock | getInterval | partition
  deriving DecidableEq, Repr

variable {F D : Type}

/-- `MStep m f ctx mv mv' s`: some call of the `model.c` function `f` takes `mv` to `mv'` and
returns the status `s`. -/
inductive MStep (m : Model F D) : MFn → Ctx F → MV F D → MV F D → Status → Prop
  | calc {ctx mv mv' s b} : m.calculateValues ctx mv = .ret (mv', s, b) → MStep m .calc ctx mv mv' s
  | get {t vr p n i ctx mv mv' s b} : m.get t ctx mv vr p n i = .ret (mv', s, b) →
      MStep m .get ctx mv mv' s
  | set {t vr p n i ctx mv mv' s b} : m.set t ctx mv vr p n i = .ret (mv', s, b) →
      MStep m .set ctx mv mv' s
  | event {eu ctx mv mv' s b} : m.eventUpdate = some eu → eu ctx mv = .ret (mv', s, b) →
      MStep m .event ctx mv mv' s
  | getStates {p n ctx mv mv' s b} : m.getContinuousStates ctx mv p n = .ret (mv', s, b) →
      MStep m .getStates ctx mv mv' s
  | nominals {p n ctx mv mv' s b} : m.getNominals ctx mv p n = .ret (mv', s, b) →
      MStep m .nominals ctx mv mv' s
  | setStates {p n ctx mv mv' s b} : m.setContinuousStates ctx mv p n = .ret (mv', s, b) →
      MStep m .setStates ctx mv mv' s
  | deriv {p n ctx mv mv' s b} : m.getDerivatives ctx mv p n = .ret (mv', s, b) →
      MStep m .deriv ctx mv mv' s
  | indicators {p n ctx mv mv' s b} : m.getEventIndicators ctx mv p n = .ret (mv', s, b) →
      MStep m .indicators ctx mv mv' s
  | partialDeriv {u k o ctx mv mv' s b} : m.getPartialDerivative ctx mv u k o = .ret (mv', s, b) →
      MStep m .partialDeriv ctx mv mv' s
  | outDeriv {f vr o v ctx mv mv' s b} : m.getOutputDerivative = some f →
      f ctx mv vr o v = .ret (mv', s, b) → MStep m .outDeriv ctx mv mv' s
  | activate {vr ctx mv mv' s b} : m.activateClock ctx mv vr = .ret (mv', s, b) →
      MStep m .activate ctx mv mv' s
  | getClock {vr o ctx mv mv' s b} : m.getClock ctx mv vr o = .ret (mv', s, b) →
      MStep m .getClock ctx mv mv' s
  | getInterval {vr i q ctx mv mv' s b} : m.getInterval ctx mv vr i q = .ret (mv', s, b) →
      MStep m .getInterval ctx mv mv' s
  | partition {vr t ctx mv mv' s b} : m.activateModelPartition ctx mv vr t = .ret (mv', s, b) →
      MStep m .partition ctx mv mv' s

/-- The functions of `model.c` only return `OK` or `Error`. -/
def OkOrError (m : Model F D) : Prop :=
  ∀ f ctx mv mv' s, MStep m f ctx mv mv' s → s = .OK ∨ s = .Error

/-- `P` is kept by the `model.c` functions in `T`, by logging, and by the dirty flag. -/
structure Quiet (m : Model F D) (T : MFn → Prop) (P : Comp F D → Prop) : Prop where
  lift : ∀ {c f mv' s}, P c → T f → MStep m f c.ctx c.mv mv' s → P { c with mv := mv' }
  log : ∀ {c} msg, P c → P (c.logError msg)
  dirty : ∀ {c} b, P c → P (c.setDirty b)

/-- `P` is also kept by everything `configurate` does. -/
structure ConfQuiet (m : Model F D) (P : Comp F D → Prop) : Prop
    extends Quiet m (fun _ => True) P where
  nx : ∀ {c}, P c → P { c with nx := m.numContinuousStates c.mv }
  nz : ∀ {c}, P c → P { c with nz := m.numEventIndicators c.mv }
  prez : ∀ {c} l, P c → P { c with prez := l }

/-- `P` is also kept by everything `DoStep` does. -/
structure StepQuiet [Arith F] (m : Model F D) (P : Comp F D → Prop) : Prop
    extends ConfQuiet m P where
  adv : ∀ {c}, P c → c.ctx.state = .stepComplete ∨ c.ctx.state = .stepMode →
    P (advanceTime m c)
  iu : ∀ {c}, P c → c.intermediateUpdate = true →
    P { c with mv := { c.mv with trace := c.mv.trace ++ [.intermediateUpdate c.ctx.time] } }
  ncp : ∀ {c} t, P c → P { c with nextCommunicationPoint := t }
  x : ∀ {c} l, P c → P { c with x := l }
  dx : ∀ {c} l, P c → P { c with dx := l }
  z : ∀ {c} l, P c → P { c with z := l }

/-- The functions of `model.c` that `DoStep` calls. -/
def MFn.solver : List MFn := [.calc, .event, .getStates, .setStates, .deriv, .indicators]

/-- `P` is kept by everything `DoStep` does. -/
structure DoQuiet [Arith F] (m : Model F D) (P : Comp F D → Prop) : Prop
    extends Quiet m (fun f => f ∈ MFn.solver) P where
  prez : ∀ {c} l, P c → P { c with prez := l }
  adv : ∀ {c}, P c → c.ctx.state = .stepComplete ∨ c.ctx.state = .stepMode →
    P (advanceTime m c)
  iu : ∀ {c}, P c → c.intermediateUpdate = true →
    P { c with mv := { c.mv with trace := c.mv.trace ++ [.intermediateUpdate c.ctx.time] } }
  ncp : ∀ {c} t, P c → P { c with nextCommunicationPoint := t }
  x : ∀ {c} l, P c → P { c with x := l }
  dx : ∀ {c} l, P c → P { c with dx := l }
  z : ∀ {c} l, P c → P { c with z := l }

theorem StepQuiet.toDo [Arith F] {m : Model F D} {P : Comp F D → Prop} (hq : StepQuiet m P) :
    DoQuiet m P :=
  { hq with lift := fun h _ e => hq.lift h trivial e }

/-- `P` is kept by everything the solver loop does, in any mode. -/
structure SolverQuiet [Arith F] (m : Model F D) (P : Comp F D → Prop) : Prop
    extends Quiet m (fun f => f ∈ MFn.solver) P where
  prez : ∀ {c} l, P c → P { c with prez := l }
  adv : ∀ {c}, P c → P (advanceTime m c)
  iu : ∀ {c}, P c → c.intermediateUpdate = true →
    P { c with mv := { c.mv with trace := c.mv.trace ++ [.intermediateUpdate c.ctx.time] } }
  ncp : ∀ {c} t, P c → P { c with nextCommunicationPoint := t }
  x : ∀ {c} l, P c → P { c with x := l }
  dx : ∀ {c} l, P c → P { c with dx := l }
  z : ∀ {c} l, P c → P { c with z := l }

theorem DoQuiet.solver [Arith F] {m : Model F D} {P : Comp F D → Prop} (hq : DoQuiet m P)
    {s : Mode} (hs : s = .stepComplete ∨ s = .stepMode) :
    SolverQuiet m fun c => P c ∧ c.ctx.state = s where
  lift h t e := ⟨hq.lift h.1 t e, h.2⟩
  log msg h := ⟨hq.log msg h.1, h.2⟩
  dirty b h := ⟨hq.dirty b h.1, h.2⟩
  prez l h := ⟨hq.prez l h.1, h.2⟩
  adv h := ⟨hq.adv h.1 (h.2 ▸ hs), h.2⟩
  iu h e := ⟨hq.iu h.1 e, h.2⟩
  ncp t h := ⟨hq.ncp t h.1, h.2⟩
  x l h := ⟨hq.x l h.1, h.2⟩
  dx l h := ⟨hq.dx l h.1, h.2⟩
  z l h := ⟨hq.z l h.1, h.2⟩

/-- A function body inside `P`: it returns `OK` or `Discard` in a state satisfying `P`, or
`Error` after terminating such a state. -/
def Body {β : Type} (P : Comp F D → Prop) (r : Res F D β) : Prop :=
  r.All fun x => (x.2.1 = .OK ∨ x.2.1 = .Discard) ∧ P x.1 ∨
    x.2.1 = .Error ∧ ∃ c, P c ∧ x.1 = c.setState .terminated

/-- An inner call inside `P`. -/
def Inner {β : Type} (P : Comp F D → Prop) (r : Res F D β) : Prop :=
  r.All fun x => (x.2.1 = .OK ∨ x.2.1 = .Discard ∨ x.2.1 = .Error) ∧ P x.1

/-- A loop inside `P` that returns the local `status`. -/
theorem Body.ret_ok {β : Type} {P : Comp F D → Prop} {c : Comp F D} {b : β} (h : P c) :
    Body P (.ret (c, .OK, b)) := by simp [Body, h]
theorem Body.ret_discard {β : Type} {P : Comp F D → Prop} {c : Comp F D} {b : β} (h : P c) :
    Body P (.ret (c, .Discard, b)) := by simp [Body, h]
theorem Body.ub {β : Type} {P : Comp F D → Prop} : Body (β := β) P .ub := by simp [Body]
theorem Body.hang {β : Type} {P : Comp F D → Prop} : Body (β := β) P .hang := by simp [Body]

theorem Body.mono {β : Type} {P Q : Comp F D → Prop} {r : Res F D β} (h : Body P r)
    (hq : ∀ c, P c → Q c) : Body Q r :=
  Outcome.All.mono h fun x hx => by
    rcases hx with ⟨h1, h2⟩ | ⟨h1, c, h2, h3⟩
    · exact .inl ⟨h1, hq _ h2⟩
    · exact .inr ⟨h1, c, hq _ h2, h3⟩

theorem Body.fail {β : Type} {P : Comp F D → Prop} {m : Model F D} {T} (hq : Quiet m T P)
    {c : Comp F D} (h : P c) (msg : String) (b : β) :
    Body P (.ret ((c.logError msg).setState .terminated, .Error, b)) := by
  rw [Body, Outcome.all_ret]; exact .inr ⟨rfl, _, hq.log msg h, rfl⟩

theorem Comp.invalidArg_eq (c : Comp F D) (msg : String) :
    c.invalidArg msg = (c.logError msg).setState .terminated := by
  rfl

theorem Body.bind_ptr {α β : Type} {P : Comp F D → Prop} {r : Outcome α} {f : α → Res F D β}
    (h : ∀ a, r = .ret a → Body P (f a)) : Body P (r >>- f) :=
  Outcome.all_bind.2 fun a e => h a e

theorem Inner.lift {β : Type} {m : Model F D} {T} {P : Comp F D → Prop} (hm : OkOrError m)
    (hq : Quiet m T P) {c : Comp F D} (hc : P c) {r : MRes F D β} {f : MFn} (hf : T f)
    (hr : ∀ mv' s b, r = .ret (mv', s, b) → MStep m f c.ctx c.mv mv' s) : Inner P (c.lift r) := by
  refine Outcome.All.bind Outcome.all_self ?_
  rintro ⟨mv', s, b⟩ e
  have h := hr _ _ _ e
  simp only [Outcome.all_ret]
  refine ⟨?_, hq.lift hc hf h⟩
  rcases hm _ _ _ _ _ h with h | h <;> simp [h]

theorem Body.call {α β : Type} {P : Comp F D → Prop} {r : Res F D α} {stop : α → β}
    {k : Comp F D → Status → α → Res F D β} (hr : Inner P r)
    (hk : ∀ c a, P c → r = .ret (c, .OK, a) → Body P (k c .OK a)) :
    Body P (call .OK r stop k) := by
  refine Outcome.All.bind (R := fun x => ((x.2.1 = .OK ∨ x.2.1 = .Discard ∨ x.2.1 = .Error) ∧ P x.1)
    ∧ r = .ret x) (fun x e => ⟨hr x e, e⟩) ?_
  rintro ⟨c, s, a⟩ ⟨⟨hs, hp⟩, e⟩
  simp only at hs hp
  rcases hs with rfl | rfl | rfl
  · exact hk c a hp e
  · simpa [Status.rank] using hp
  · simpa [Status.rank] using ⟨c, hp, rfl⟩

theorem Body.callLast {α β : Type} {P : Comp F D → Prop} {r : Res F D α} {out : α → β}
    (hr : Inner P r) : Body P (callLast r out) :=
  Body.call hr fun _ _ h _ => Body.ret_ok h

theorem Body.begin {β : Type} {m : Model F D} {T} {P : Comp F D → Prop} (hq : Quiet m T P)
    {al : Bool} {name : String} {c : Comp F D} {stop : β} {k : Comp F D → Res F D β} (hc : P c)
    (hk : al = true → Body P (k c)) : Body P (beginFunction al name c stop k) := by
  unfold beginFunction
  split
  · next h => exact hk h
  · exact Body.fail hq hc _ _

theorem Body.nonNull {α β : Type} {m : Model F D} {T} {P : Comp F D → Prop} (hq : Quiet m T P)
    {p : Option α} {c : Comp F D} {stop : β} {k : Res F D β} (hc : P c) (hk : Body P k) :
    Body P (assertNonNull p c stop k) := by
  unfold assertNonNull
  split
  · exact Body.fail hq hc _ _
  · exact hk

theorem Body.refresh {β : Type} {m : Model F D} {T} {P : Comp F D → Prop} (hm : OkOrError m)
    (hq : Quiet m T P) (hT : T .calc) {c : Comp F D} {stop : β}
    {k : Comp F D → Status → Res F D β} (hc : P c) (hk : ∀ c, P c → Body P (k c .OK)) :
    Body P (refresh m .OK c stop k) := by
  unfold Verif.refresh
  split
  · exact Body.call (Inner.lift hm hq hc hT fun _ _ _ e => .calc e) fun c _ h _ =>
      hk _ (hq.dirty false h)
  · exact hk _ hc

/-- Continue after a loop that returned the local `status`. -/
theorem Body.after {α β : Type} {P : Comp F D → Prop} {r : Res F D α}
    {k : Comp F D × Status × α → Res F D β} (hr : Body P r)
    (hok : ∀ c a, P c → Body P (k (c, .OK, a)))
    (hd : ∀ c a, P c → Body P (k (c, .Discard, a)))
    (he : ∀ c a, P c → Body P (k (c.setState .terminated, .Error, a))) : Body P (r >>- k) := by
  refine Outcome.All.bind hr ?_
  rintro ⟨c, s, a⟩ h
  simp only at h
  rcases h with ⟨rfl | rfl, h⟩ | ⟨rfl, c', h, rfl⟩
  · exact hok c a h
  · exact hd c a h
  · exact he c' a h

theorem Body.err {β : Type} {P : Comp F D → Prop} {c : Comp F D} {b : β} (h : P c) :
    Body P (.ret (c.setState .terminated, .Error, b)) := by
  rw [Body, Outcome.all_ret]; exact .inr ⟨rfl, _, h, rfl⟩

theorem Body.getLoop {m : Model F D} {T} {P : Comp F D → Prop} (hm : OkOrError m)
    (hq : Quiet m T P) (hT : T .get) {t vr nValues} (n : Nat) :
    ∀ i c values index, P c → Body P (getLoop m t vr nValues n i c .OK values index) := by
  induction n with
  | zero => intro i c v ix h; exact Body.ret_ok h
  | succ n ih =>
    intro i c v ix h
    exact Body.bind_ptr fun r _ => Body.call (Inner.lift hm hq h hT fun _ _ _ e => .get e)
      fun c a h _ => ih _ _ _ _ h

theorem Body.setLoop {m : Model F D} {T} {P : Comp F D → Prop} (hm : OkOrError m)
    (hq : Quiet m T P) (hT : T .set) {t vr values nValues} (n : Nat) :
    ∀ i c index, P c → Body P (setLoop m t vr values nValues n i c .OK index) := by
  induction n with
  | zero => intro i c ix h; exact Body.ret_ok h
  | succ n ih =>
    intro i c ix h
    exact Body.bind_ptr fun r _ => Body.call (Inner.lift hm hq h hT fun _ _ _ e => .set e)
      fun c a h _ => ih _ _ _ h

theorem Body.derivInner [Arith F] {m : Model F D} {T} {P : Comp F D → Prop} (hm : OkOrError m)
    (hq : Quiet m T P) (hT : T .partialDeriv) {pair seed} (n : Nat) :
    ∀ j c acc, P c → Body P (derivInner m pair seed n j c .OK acc) := by
  induction n with
  | zero => intro i c ix h; exact Body.ret_ok h
  | succ n ih =>
    intro i c ix h
    exact Body.bind_ptr fun r _ =>
      Body.call (Inner.lift hm hq h hT fun _ _ _ e => .partialDeriv e)
        fun c a h _ => Body.bind_ptr fun _ _ => ih _ _ _ h

theorem Body.derivOuter [Arith F] {m : Model F D} {T} {P : Comp F D → Prop} (hm : OkOrError m)
    (hq : Quiet m T P) (hT : T .partialDeriv) {pair seed nInner} (n : Nat) :
    ∀ i c out, P c → Body P (derivOuter m pair seed nInner n i c .OK out) := by
  induction n with
  | zero => intro i c ix h; exact Body.ret_ok h
  | succ n ih =>
    intro i c out h
    refine Body.bind_ptr fun out _ => ?_
    refine Body.after (Body.derivInner hm hq hT _ _ _ _ h) ?_ ?_ ?_
    · intro c a h; exact Body.bind_ptr fun out _ => by simpa using ih _ _ _ h
    · intro c a h; exact Body.bind_ptr fun out _ => by simpa using Body.ret_discard h
    · intro c a h; exact Body.bind_ptr fun out _ => by simpa using Body.err h

theorem Body.outputDerivLoop {m : Model F D} {T} {P : Comp F D → Prop} (hm : OkOrError m)
    (hq : Quiet m T P) (hT : T .outDeriv) {f vr order} (hf : m.getOutputDerivative = some f)
    (n : Nat) :
    ∀ i c out, P c → Body P (outputDerivLoop f vr order n i c .OK out) := by
  induction n with
  | zero => intro i c ix h; exact Body.ret_ok h
  | succ n ih =>
    intro i c out h
    refine Body.bind_ptr fun r _ => Body.bind_ptr fun o _ => Body.bind_ptr fun old _ => ?_
    refine Outcome.All.bind
      (Inner.lift hm hq h hT (r := f c.ctx c.mv r o old) fun _ _ _ e => .outDeriv hf e) ?_
    rintro ⟨c', s, v⟩ hc'
    exact Body.bind_ptr fun out _ => Body.call (by simpa [Inner] using hc')
      fun c _ h _ => ih _ _ _ h

section
variable {m : Model F D} {P : Comp F D → Prop}

theorem Inner.callCo {α β : Type} {r : Res F D α} {stop : β}
    {k : Comp F D → α → Res F D β} (hr : Inner P r)
    (hk : ∀ c a, P c → r = .ret (c, .OK, a) → Inner P (k c a)) : Inner P (callCo r stop k) := by
  refine Outcome.All.bind (R := fun x => ((x.2.1 = .OK ∨ x.2.1 = .Discard ∨ x.2.1 = .Error) ∧ P x.1)
    ∧ r = .ret x) (fun x e => ⟨hr x e, e⟩) ?_
  rintro ⟨c, s, a⟩ ⟨⟨hs, hp⟩, e⟩
  simp only at hs hp
  rcases hs with rfl | rfl | rfl
  · exact hk c a hp e
  · simpa using hp
  · simpa using hp

theorem Inner.ret_ok {β : Type} {c : Comp F D} {b : β} (h : P c) : Inner P (.ret (c, .OK, b)) := by
  simp [Inner, h]
theorem Inner.ret_error {β : Type} {c : Comp F D} {b : β} (h : P c) :
    Inner P (.ret (c, .Error, b)) := by simp [Inner, h]
theorem Inner.ret_discard {β : Type} {c : Comp F D} {b : β} (h : P c) :
    Inner P (.ret (c, .Discard, b)) := by simp [Inner, h]

variable [Arith F]

theorem Inner.eulerStep (hm : OkOrError m) (hq : SolverQuiet m P) {c : Comp F D} (h : P c) :
    Inner P (eulerStep m c) := by
  unfold Verif.eulerStep
  split
  · refine Inner.callCo (Inner.lift hm hq.toQuiet h (f := .getStates) (by decide)
      fun _ _ _ e => .getStates e) fun c a h _ => ?_
    have h := hq.x (a.getD c.x) h
    refine Inner.callCo (Inner.lift hm hq.toQuiet h (f := .deriv) (by decide)
      fun _ _ _ e => .deriv e) fun c a h _ => ?_
    have h := hq.dx (a.getD c.dx) h
    have h := hq.x (eulerUpdate m.h c.nx c.x (a.getD c.dx)) h
    refine Inner.callCo (Inner.lift hm hq.toQuiet h (f := .setStates) (by decide)
      fun _ _ _ e => .setStates e) fun c a h _ => Inner.ret_ok h
  · exact Inner.ret_ok h

theorem Inner.detectStateEvent (hm : OkOrError m) (hq : SolverQuiet m P) {c : Comp F D} (h : P c) :
    Inner P (detectStateEvent m c) := by
  unfold Verif.detectStateEvent
  split
  · refine Inner.callCo (Inner.lift hm hq.toQuiet h (f := .indicators) (by decide)
      fun _ _ _ e => .indicators e) fun c a h _ => ?_
    exact Inner.ret_ok (hq.prez _ (hq.z _ h))
  · exact Inner.ret_ok h

theorem Inner.doFixedStep (hm : OkOrError m) (hq : SolverQuiet m P) {c : Comp F D} (h : P c) :
    Inner P (doFixedStep m c) := by
  unfold Verif.doFixedStep
  refine Inner.callCo (Inner.eulerStep hm hq h) fun c a h _ => ?_
  refine Inner.callCo (Inner.detectStateEvent hm hq (hq.adv h)) fun c a h _ => ?_
  simp only
  split
  · next hi => exact Inner.ret_ok (hq.iu h hi)
  · exact Inner.ret_ok h

omit [Arith F] in
theorem Inner.configurateT {T : MFn → Prop} (hm : OkOrError m) (hq : Quiet m T P) (hT : T .indicators)
    (nx : ∀ {c}, P c → P { c with nx := m.numContinuousStates c.mv })
    (nz : ∀ {c}, P c → P { c with nz := m.numEventIndicators c.mv })
    (prez : ∀ {c} l, P c → P { c with prez := l }) {c : Comp F D} (h : P c) :
    Inner P (configurate m c) := by
  unfold Verif.configurate
  have fin : ∀ c : Comp F D, P c → Inner (β := Unit) P
      (.ret (if m.maxNX > 0 then { c with nx := m.numContinuousStates c.mv } else c, .OK, ())) := by
    intro c h
    split
    · exact Inner.ret_ok (nx h)
    · exact Inner.ret_ok h
  simp only
  split
  · refine Inner.callCo (Inner.lift hm hq (nz h) (f := .indicators) hT
      fun _ _ _ e => .indicators e) fun c a h _ => fin _ (prez _ h)
  · exact fin _ h

omit [Arith F] in
theorem Inner.configurate (hm : OkOrError m) (hq : ConfQuiet m P) {c : Comp F D} (h : P c) :
    Inner P (configurate m c) :=
  Inner.configurateT hm hq.toQuiet trivial hq.nx hq.nz hq.prez h

end

/-- The logging switches may change. -/
def FlagClosed (P : Comp F D → Prop) : Prop :=
  ∀ {c : Comp F D} (a b : Bool), P c → P { c with ctx := { c.ctx with logEvents := a, logErrors := b } }

theorem Inner.setDebugLoggingLoop {m : Model F D} {T} {P : Comp F D → Prop} (hq : Quiet m T P)
    (hf : FlagClosed P) (on : Bool) (cats : Ptr (Option String)) (n : Nat) :
    ∀ i c, P c → Inner P (setDebugLoggingLoop on cats n i c) := by
  induction n with
  | zero => intro i c h; simp [Verif.setDebugLoggingLoop, Inner, h]
  | succ n ih =>
    intro i c h
    refine Outcome.All.bind Outcome.all_true fun cat _ => ?_
    simp only
    split
    · simpa using hq.log _ h
    · split
      · exact ih _ _ (hf on c.ctx.logErrors h)
      · split
        · exact ih _ _ (hf c.ctx.logEvents on h)
        · simpa using hq.log _ h

theorem Inner.setDebugLogging {m : Model F D} {T} {P : Comp F D → Prop} (hq : Quiet m T P)
    (hf : FlagClosed P) (on : Bool) (cats : Ptr (Option String)) (n : Nat) {c : Comp F D} (h : P c) :
    Inner P (setDebugLogging c on n cats) := by
  unfold Verif.setDebugLogging
  split
  · split
    · simpa [Inner] using hq.log _ h
    · exact Inner.setDebugLoggingLoop hq hf _ _ _ _ _ h
  · simpa [Inner] using hf on on h

end Verif
