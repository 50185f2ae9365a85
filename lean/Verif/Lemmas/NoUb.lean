import Verif.Spec.WellFormed
import Verif.Lemmas.Reach3
import Verif.Lemmas.RelRef
import Verif.Lemmas.Restore

/-!
# Calls without undefined behaviour: the runtime

`Outcome.Safe r R`: no undefined behaviour, and a result satisfies `R`. `Model.Safe m E K J Q` collects
what the functions of `model.c` need: `K` constants of the instance, `J` an invariant of the part the
model may write, `Q` room for an event update, `E` the data types whose Set function reads a value
before it checks the number of values.
-/

set_option linter.unusedSectionVars false

namespace Verif

/-- No undefined behaviour, and a result satisfies `R`. -/
def Outcome.Safe {α : Type} (r : Outcome α) (R : α → Prop) : Prop := r ≠ .ub ∧ r.All R

/-- No undefined behaviour. -/
def Outcome.NoUb {α : Type} (r : Outcome α) : Prop := r ≠ .ub

namespace Outcome
variable {α β : Type} {R R' : α → Prop}

theorem Safe.ret {a : α} (h : R a) : (Outcome.ret a).Safe R := ⟨nofun, all_ret.2 h⟩
theorem Safe.hang : (Outcome.hang : Outcome α).Safe R := ⟨nofun, all_hang.2 trivial⟩
theorem Safe.mono {r : Outcome α} (h : r.Safe R) (hr : ∀ a, R a → R' a) : r.Safe R' := ⟨h.1, h.2.mono hr⟩
theorem Safe.bind {r : Outcome β} {f : β → Outcome α} {S : β → Prop} (h : r.Safe S)
    (hf : ∀ b, S b → (f b).Safe R) : (r >>- f).Safe R := by
  cases r with
  | ret b => exact hf b (h.2 b rfl)
  | ub => exact absurd rfl h.1
  | hang => exact .hang
theorem Safe.noUb {r : Outcome α} (h : r.Safe R) : r.NoUb := h.1
theorem NoUb.safe {r : Outcome α} (h : r.NoUb) : r.Safe fun a => r = .ret a := ⟨h, all_self⟩
theorem NoUb.safe' {r : Outcome α} (h : r.NoUb) : r.Safe fun _ => True := ⟨h, all_true⟩
theorem NoUb.ret {a : α} : (Outcome.ret a).NoUb := nofun
theorem NoUb.hang : (Outcome.hang : Outcome α).NoUb := nofun
theorem Safe.nbind {r : Outcome β} {f : β → Outcome α} {S : β → Prop} (h : r.Safe S)
    (hf : ∀ b, S b → (f b).NoUb) : (r >>- f).NoUb := by
  cases r with
  | ret b => exact hf b (h.2 b rfl)
  | ub => exact absurd rfl h.1
  | hang => exact .hang
theorem NoUb.bind {r : Outcome β} {f : β → Outcome α} (h : r.NoUb)
    (hf : ∀ b, (f b).NoUb) : (r >>- f).NoUb := h.safe'.nbind fun b _ => hf b
end Outcome

section
variable {α : Type}

theorem Ptr.Has.read {p : Ptr α} {n i : Nat} (h : p.Has n) (hi : i < n) : (p.read i).Safe fun _ => True := by
  rcases h with h | ⟨l, rfl, h⟩
  · omega
  · have : i < l.length := by omega
    simp only [Ptr.read, List.getElem?_eq_getElem this]
    exact .ret trivial

theorem Ptr.Has.write {p : Ptr α} {n i : Nat} {a : α} (h : p.Has n) (hi : i < n) :
    (p.write i a).Safe fun p' => p'.Has n := by
  rcases h with h | ⟨l, rfl, h⟩
  · omega
  · have : i < l.length := by omega
    simp only [Ptr.write, this, if_true]
    exact .ret (.inr ⟨_, rfl, by simpa using h⟩)

theorem writeN_safe {l : List α} : ∀ {vs : List α} {i : Nat}, i + vs.length ≤ l.length →
    (writeN (some l) i vs).Safe fun p => ∃ l', p = some l' ∧ l'.length = l.length := by
  intro vs
  induction vs generalizing l with
  | nil => intro i h; exact .ret ⟨l, rfl, rfl⟩
  | cons v vs ih =>
    intro i h
    simp only [List.length_cons] at h
    simp only [writeN, Ptr.write, show i < l.length by omega, if_true, Outcome.ret_bind]
    refine (ih (l := l.set i v) (i := i + 1) (by simp; omega)).mono ?_
    rintro p ⟨l', rfl, h'⟩
    exact ⟨l', rfl, by simpa using h'⟩

theorem readN_safe {l : List α} : ∀ {n i : Nat}, i + n ≤ l.length →
    (readN (some l) i n).Safe fun _ => True := by
  intro n
  induction n with
  | zero => intro i h; exact .ret trivial
  | succ n ih =>
    intro i h
    have : i < l.length := by omega
    simp only [readN, Ptr.read, List.getElem?_eq_getElem this, Outcome.ret_bind]
    exact (ih (i := i + 1) (by omega)).bind fun _ _ => .ret trivial
end

variable {F D : Type}

/-- Same length, NULL or not. -/
def Ptr.SameLen {α : Type} (p p' : Ptr α) : Prop := p'.map List.length = p.map List.length

theorem Ptr.SameLen.has {α : Type} {p p' : Ptr α} (h : p.SameLen p') {n : Nat} (hn : p.Has n) : p'.Has n := by
  rcases hn with hn | ⟨l, rfl, hn⟩
  · exact .inl hn
  · cases p' with
    | none => simp [Ptr.SameLen] at h
    | some l' => simp only [Ptr.SameLen, Option.map_some, Option.some.injEq] at h; exact .inr ⟨l', rfl, by omega⟩

/-- See the head of the file. -/
structure Model.Safe (m : Model F D) (E : VType → Prop) (K : Ctx F → Prop) (J Q : MV F D → Prop) : Prop where
  okOrError : OkOrError m
  const : ∀ {ctx ctx'}, FMI2.sameConst ctx ctx' → K ctx → K ctx'
  step : ∀ {f ctx mv mv' s}, J mv → MStep m f ctx mv mv' s → J mv'
  dirty : ∀ {mv} b, J mv → J { mv with isDirtyValues := b }
  trace : ∀ {mv} l, J mv → J { mv with trace := l }
  nx : ∀ {mv}, J mv → m.numContinuousStates mv ≤ m.maxNX
  nz : ∀ {mv}, J mv → m.numEventIndicators mv ≤ m.maxNZ
  «calc» : ∀ {ctx mv}, K ctx → J mv → (m.calculateValues ctx mv).NoUb
  get : ∀ {ctx mv t vr p n i}, K ctx → J mv → Ptr.Has p n →
    (m.get t ctx mv vr p n i).Safe fun x => Ptr.Has x.2.2.1 n
  set : ∀ {ctx mv t vr p n i}, K ctx → J mv → Ptr.Has p n → Ptr.Good p → (E t → i < n) →
    (m.set t ctx mv vr p n i).Safe fun x => x.2.1 = .OK → E t → x.2.2 = i + 1
  getB : ∀ {ctx mv vr b n}, K ctx → J mv →
    (m.get .boolean ctx mv vr (some [b]) n 0).Safe fun x => ∃ v, x.2.2.1 = some [v]
  setB : ∀ {ctx mv vr b n}, K ctx → J mv → (m.set .boolean ctx mv vr (some [b]) n 0).NoUb
  getX : ∀ {ctx mv p n}, K ctx → J mv → Ptr.Has p n →
    (m.getContinuousStates ctx mv p n).Safe fun x => Ptr.SameLen p x.2.2
  nominals : ∀ {ctx mv p n}, K ctx → J mv → Ptr.Has p n → (m.getNominals ctx mv p n).NoUb
  setX : ∀ {ctx mv p n}, K ctx → J mv → Ptr.Has p n → (m.setContinuousStates ctx mv p n).NoUb
  getDX : ∀ {ctx mv p n}, K ctx → J mv → Ptr.Has p n →
    (m.getDerivatives ctx mv p n).Safe fun x => Ptr.SameLen p x.2.2
  getZ : ∀ {ctx mv p n}, K ctx → J mv → Ptr.Has p n →
    (m.getEventIndicators ctx mv p n).Safe fun x => Ptr.SameLen p x.2.2
  partialD : ∀ {ctx mv u k o}, (m.getPartialDerivative ctx mv u k o).NoUb
  outD : ∀ {f ctx mv vr o v}, m.getOutputDerivative = some f → (f ctx mv vr o v).NoUb
  activate : ∀ {ctx mv vr}, (m.activateClock ctx mv vr).NoUb
  getClock : ∀ {ctx mv vr o}, (m.getClock ctx mv vr o).NoUb
  getInterval : ∀ {ctx mv vr i q}, (m.getInterval ctx mv vr i q).NoUb
  event : ∀ {eu ctx mv}, m.eventUpdate = some eu → K ctx → J mv → Q mv →
    (eu ctx mv).Safe fun x => x.2.1 = .OK → Q x.1
  room : ∀ {mv}, J mv → mv.terminateSimulation = false → Q mv
  keep : ∀ {f ctx mv mv' s}, Q mv → f ∈ MFn.solver → f ≠ .event → MStep m f ctx mv mv' s → Q mv'
  keepTrace : ∀ {mv} l, Q mv → Q { mv with trace := l }

/-- What holds between the API calls. -/
structure Comp.Sound (m : Model F D) (K : Ctx F → Prop) (J : MV F D → Prop) (c : Comp F D) : Prop where
  ctx : K c.ctx
  mv : J c.mv
  lens : c.Lens m
  nx : c.nx ≤ m.maxNX
  nz : c.nz ≤ m.maxNZ

variable {m : Model F D} {E : VType → Prop} {K : Ctx F → Prop} {J Q : MV F D → Prop}
variable (S : m.Safe E K J Q) {c : Comp F D}
include S

theorem Model.Safe.logMV {ctx : Ctx F} {mv : MV F D} (h : J mv) (msg : String) : J (logError ctx mv msg) := by
  unfold logError; split
  · exact S.trace _ h
  · exact h

theorem Comp.Sound.lift {c : Comp F D} (h : c.Sound m K J) {f mv' s} (e : MStep m f c.ctx c.mv mv' s) :
    ({ c with mv := mv' } : Comp F D).Sound m K J :=
  ⟨h.ctx, S.step h.mv e, ⟨h.lens.z, h.lens.prez, h.lens.x, h.lens.dx⟩, h.nx, h.nz⟩

omit S in
theorem sameConst_state (ctx : Ctx F) (s : Mode) : FMI2.sameConst ctx { ctx with state := s } := ⟨rfl, rfl, rfl, rfl, rfl⟩
omit S in
theorem sameConst_time (ctx : Ctx F) (t : F) : FMI2.sameConst ctx { ctx with time := t } := ⟨rfl, rfl, rfl, rfl, rfl⟩

theorem Comp.Sound.setDirty {c : Comp F D} (h : c.Sound m K J) (b : Bool) : (c.setDirty b).Sound m K J :=
  ⟨h.ctx, S.dirty b h.mv, ⟨h.lens.z, h.lens.prez, h.lens.x, h.lens.dx⟩, h.nx, h.nz⟩

theorem Comp.Sound.setState {c : Comp F D} (h : c.Sound m K J) (s : Mode) : (c.setState s).Sound m K J :=
  ⟨S.const (sameConst_state _ _) h.ctx, h.mv, ⟨h.lens.z, h.lens.prez, h.lens.x, h.lens.dx⟩, h.nx, h.nz⟩

/-- Run a function of `model.c`. -/
theorem Comp.Sound.run {β : Type} {c : Comp F D} (h : c.Sound m K J) {r : MRes F D β} {f : MFn} {R : MV F D × Status × β → Prop}
    (hr : r.Safe R) (hf : ∀ mv' s b, r = .ret (mv', s, b) → MStep m f c.ctx c.mv mv' s) :
    (c.lift r).Safe fun x => x.1.Sound m K J ∧ (x.2.1 = .OK ∨ x.2.1 = .Error) ∧ R (x.1.mv, x.2) ∧
      ∃ mv', x.1 = { c with mv := mv' } ∧ r = .ret (mv', x.2) := by
  cases r with
  | ret x =>
    obtain ⟨mv', s, b⟩ := x
    have e := hf _ _ _ rfl
    exact .ret ⟨h.lift S e, S.okOrError _ _ _ _ _ e, hr.2 _ rfl, mv', rfl, rfl⟩
  | ub => exact absurd rfl hr.1
  | hang => exact .hang


theorem Comp.Sound.setTime {c : Comp F D} (h : c.Sound m K J) (t : F) : (c.setTime t).Sound m K J :=
  ⟨S.const (sameConst_time _ _) h.ctx, h.mv, ⟨h.lens.z, h.lens.prez, h.lens.x, h.lens.dx⟩, h.nx, h.nz⟩

omit S

/-- A result of an inner call: on success the instance satisfies `I`. -/
def Fine {α : Type} (I : Comp F D → α → Prop) (x : Comp F D × Status × α) : Prop :=
  x.2.1 = .OK ∧ I x.1 x.2.2 ∨ x.2.1 = .Error

theorem Fine.ok {α : Type} {I : Comp F D → α → Prop} {c : Comp F D} {a : α} (h : I c a) : Fine I (c, .OK, a) := .inl ⟨rfl, h⟩
theorem Fine.err {α : Type} {I : Comp F D → α → Prop} {c : Comp F D} {a : α} : Fine I (c, .Error, a) := .inr rfl

/-- The macro `CALL`. -/
theorem call_safe {α β : Type} {r : Res F D α} {stop : α → β}
    {k : Comp F D → Status → α → Res F D β} {I : Comp F D → α → Prop} {I' : Comp F D → β → Prop}
    (h : r.Safe (Fine I)) (hk : ∀ c a, I c a → (k c .OK a).Safe (Fine I')) : (call .OK r stop k).Safe (Fine I') := by
  refine h.bind ?_
  rintro ⟨c, s, a⟩ (⟨rfl, hx⟩ | h)
  · exact hk _ _ hx
  · simp only at h; subst h
    simp only [Status.rank]
    exact .ret .err

theorem call_noUb {α β : Type} {r : Res F D α} {stop : α → β}
    {k : Comp F D → Status → α → Res F D β} {I : Comp F D → α → Prop}
    (h : r.Safe (Fine I)) (hk : ∀ c a, I c a → (k c .OK a).NoUb) : (call .OK r stop k).NoUb := by
  refine h.nbind ?_
  rintro ⟨c, s, a⟩ (⟨rfl, hx⟩ | h)
  · exact hk _ _ hx
  · simp only at h; subst h
    exact .ret

theorem callLast_noUb {α β : Type} {r : Res F D α} {out : α → β} (h : r.NoUb) : (callLast r out).NoUb := by
  unfold callLast call
  refine h.bind ?_
  rintro ⟨c, s, a⟩
  simp only
  repeat' split
  all_goals exact .ret

theorem callCo_safe {α β : Type} {r : Res F D α} {stop : β}
    {k : Comp F D → α → Res F D β} {I : Comp F D → α → Prop} {I' : Comp F D → β → Prop}
    (h : r.Safe (Fine I)) (hk : ∀ c a, I c a → (k c a).Safe (Fine I')) : (callCo r stop k).Safe (Fine I') := by
  refine h.bind ?_
  rintro ⟨c, s, a⟩ (⟨rfl, hx⟩ | h)
  · exact hk _ _ hx
  · simp only at h; subst h
    exact .ret .err

theorem begin_noUb {β : Type} {al : Bool} {name : String} {c : Comp F D} {stop : β} {k : Comp F D → Res F D β}
    (hk : (k c).NoUb) : (beginFunction al name c stop k).NoUb := by
  unfold beginFunction
  split
  · exact hk
  · exact .ret

theorem nonNull_noUb {α β : Type} {p : Option α} {c : Comp F D} {stop : β} {k : Res F D β}
    (hk : k.NoUb) : (assertNonNull p c stop k).NoUb := by
  unfold assertNonNull
  split
  · exact .ret
  · exact hk

theorem Outcome.Safe.lift {β : Type} {c : Comp F D} {r : MRes F D β} {R : MV F D × Status × β → Prop} (h : r.Safe R) :
    (c.lift r).Safe fun x => R (x.1.mv, x.2) ∧ x.1 = { c with mv := x.1.mv } :=
  h.bind fun _ hx => .ret ⟨hx, rfl⟩

include S

/-- Run a function of `model.c`. -/
theorem Comp.Sound.call {β : Type} {c : Comp F D} (h : c.Sound m K J) {r : MRes F D β} {f : MFn}
    (hr : r.NoUb) (hf : ∀ mv' s b, r = .ret (mv', s, b) → MStep m f c.ctx c.mv mv' s) :
    (c.lift r).Safe (Fine fun c' _ => c'.Sound m K J) :=
  (h.run S hr.safe' hf).mono fun x hx => by
    rcases hx.2.1 with e | e
    · exact .inl ⟨e, hx.1⟩
    · exact .inr e

/-- Run a function of `model.c` that leaves room for an event update if there was room, and keeps a
property of its output. -/
theorem Comp.Sound.solve {β : Type} {c : Comp F D} (h : c.Sound m K J) {r : MRes F D β} {f : MFn} {R : β → Prop}
    (hr : r.Safe fun x => R x.2.2) (hf : ∀ mv' s b, r = .ret (mv', s, b) → MStep m f c.ctx c.mv mv' s)
    (hs : f ∈ MFn.solver) (he : f ≠ .event) :
    (c.lift r).Safe (Fine fun c' b => c'.Sound m K J ∧ R b ∧ (Q c.mv → Q c'.mv) ∧ ∃ mv', c' = { c with mv := mv' }) :=
  (h.run S hr hf).mono fun x hx => by
    obtain ⟨c', s, b⟩ := x
    obtain ⟨h1, h2, h3, mv', h4, h5⟩ := hx
    simp only at h1 h2 h3 h4 h5
    subst h4
    rcases h2 with e | e
    · exact .inl ⟨e, h1, h3, fun hq => S.keep hq hs he (hf _ _ _ h5), mv', rfl⟩
    · exact .inr e

theorem Comp.Sound.refresh {β : Type} {c : Comp F D} (h : c.Sound m K J) {stop : β} {k : Comp F D → Status → Res F D β}
    (hk : ∀ c, c.Sound m K J → (k c .OK).NoUb) : (refresh m .OK c stop k).NoUb := by
  unfold Verif.refresh
  split
  · exact call_noUb (h.call S (S.calc h.ctx h.mv) fun _ _ _ e => .calc e) fun c _ h => hk _ (h.setDirty S _)
  · exact hk _ h

theorem getLoop_noUb {t : VType} {vr : Ptr Nat} {nvr nValues : Nat} (hvr : vr.Has nvr) (n : Nat) :
    ∀ {i} {c : Comp F D} {v : Ptr (t.Val F)} {index}, c.Sound m K J → i + n = nvr → v.Has nValues →
      (getLoop m t vr nValues n i c .OK v index).NoUb := by
  induction n with
  | zero => intro i c v index _ _ _; exact .ret
  | succ n ih =>
    intro i c v index h hi hv
    refine (hvr.read (i := i) (by omega)).nbind fun r _ => ?_
    refine call_noUb (I := fun c x => c.Sound m K J ∧ x.1.Has nValues) ?_ fun c a hx => ih hx.1 (by omega) hx.2
    refine (h.run S (S.get h.ctx h.mv hv) fun _ _ _ e => .get e).mono fun x hx => ?_
    rcases hx.2.1 with e | e
    · exact .inl ⟨e, hx.1, hx.2.2.1⟩
    · exact .inr e

theorem setLoop_noUb {t : VType} {vr : Ptr Nat} {v : Ptr (t.Val F)} {nvr nValues : Nat} (hvr : vr.Has nvr)
    (hv : v.Has nValues) (hg : v.Good) (hn : E t → nvr ≤ nValues) (n : Nat) :
    ∀ {i} {c : Comp F D} {index}, c.Sound m K J → i + n = nvr → (E t → index = i) →
      (setLoop m t vr v nValues n i c .OK index).NoUb := by
  induction n with
  | zero => intro i c index _ _ _; exact .ret
  | succ n ih =>
    intro i c index h hi hix
    refine (hvr.read (i := i) (by omega)).nbind fun r _ => ?_
    refine call_noUb (I := fun c x => c.Sound m K J ∧ (E t → x = i + 1)) ?_ fun c a hx => ih hx.1 (by omega) hx.2
    refine (h.run S (S.set h.ctx h.mv hv hg fun e => by have := hn e; have := hix e; omega) fun _ _ _ e => .set e).mono fun x hx => ?_
    rcases hx.2.1 with e | e
    · exact .inl ⟨e, hx.1, fun et => by rw [hx.2.2.1 e et, hix et]⟩
    · exact .inr e

theorem derivInner_safe [Arith F] {pair : Nat → Outcome (Nat × Nat)} {seed : Ptr F} {nn : Nat}
    (hp : ∀ j, j < nn → (pair j).NoUb) (hs : seed.Has nn) (n : Nat) :
    ∀ {j} {c : Comp F D} {acc}, c.Sound m K J → j + n = nn →
      (derivInner m pair seed n j c .OK acc).Safe (Fine fun c _ => c.Sound m K J) := by
  induction n with
  | zero => intro j c acc h _; exact .ret (.ok h)
  | succ n ih =>
    intro j c acc h hj
    refine (hp j (by omega)).safe'.bind fun r _ => ?_
    refine call_safe (h.call S S.partialD fun _ _ _ e => .partialDeriv e) fun c a h => ?_
    exact (hs.read (by omega)).bind fun _ _ => ih h (by omega)

theorem derivOuter_noUb [Arith F] {pair : Nat → Nat → Outcome (Nat × Nat)} {seed : Ptr F} {ni no : Nat}
    (hp : ∀ i j, i < no → j < ni → (pair i j).NoUb) (hs : seed.Has ni) (n : Nat) :
    ∀ {i} {c : Comp F D} {out : Ptr F}, c.Sound m K J → i + n = no → out.Has no →
      (derivOuter m pair seed ni n i c .OK out).NoUb := by
  induction n with
  | zero => intro i c out h _ _; exact .ret
  | succ n ih =>
    intro i c out h hi ho
    refine (ho.write (by omega)).nbind fun out ho => ?_
    refine (derivInner_safe S (fun j hj => hp i j (by omega) hj) hs ni h (by omega)).nbind ?_
    rintro ⟨c, s, v⟩ hx
    refine (ho.write (by omega)).nbind fun out ho => ?_
    rcases hx with ⟨e, hx⟩ | e
    · simp only at e hx; subst e
      simpa using ih hx (by omega) ho
    · simp only at e; subst e
      exact .ret

theorem outputDerivLoop_noUb {f : Ctx F → MV F D → Nat → Int → F → MRes F D F} {vr : Ptr Nat} {order : Ptr Int} {nn : Nat}
    (hf : m.getOutputDerivative = some f) (hvr : vr.Has nn) (ho : order.Has nn) (n : Nat) :
    ∀ {i} {c : Comp F D} {out : Ptr F}, c.Sound m K J → i + n = nn → out.Has nn →
      (outputDerivLoop f vr order n i c .OK out).NoUb := by
  induction n with
  | zero => intro i c out h _ _; exact .ret
  | succ n ih =>
    intro i c out h hi hout
    refine (hvr.read (i := i) (by omega)).nbind fun r _ => ?_
    refine (ho.read (i := i) (by omega)).nbind fun o _ => ?_
    refine (hout.read (i := i) (by omega)).nbind fun old _ => ?_
    refine (h.call S (S.outD hf) fun _ _ _ e => .outDeriv hf e).nbind ?_
    rintro ⟨c, s, v⟩ hx
    refine (hout.write (i := i) (by omega)).nbind fun out hout => ?_
    refine call_noUb (I := fun c _ => c.Sound m K J) (.ret ?_) fun c _ h => ih h (by omega) hout
    exact hx

omit S in
theorem setDebugLogging_noUb {c : Comp F D} {on : Bool} {n : Nat} {cats : Ptr (Option String)} (h : cats.Has n) :
    (setDebugLogging c on n cats).NoUb := by
  unfold setDebugLogging
  split
  · split
    · exact .ret
    · suffices ∀ k i (c : Comp F D), i + k = n → (setDebugLoggingLoop on cats k i c).NoUb from this _ _ _ (by omega)
      intro k
      induction k with
      | zero => intro i c _; exact .ret
      | succ k ih =>
        intro i c hi
        refine (h.read (i := i) (by omega)).nbind fun r _ => ?_
        simp only
        repeat' split
        all_goals first | exact .ret | exact ih _ _ (by omega)
  · exact .ret

omit S in
theorem has_some {l : List F} {n : Nat} (h : n ≤ l.length) : Ptr.Has (some l) n := .inr ⟨l, rfl, h⟩

omit S in
theorem SameLen.getD {l : List F} {p : Ptr F} (h : Ptr.SameLen (some l) p) (l' : List F) : (p.getD l').length = l.length := by
  cases p with
  | none => simp [Ptr.SameLen] at h
  | some l'' => simpa [Ptr.SameLen] using h

theorem configurate_noUb {c : Comp F D} (h : c.Sound m K J) : (configurate m c).NoUb := by
  unfold configurate
  simp only
  split
  · unfold callCo
    refine (Outcome.Safe.lift (R := fun _ => True) ?_).nbind ?_
    · refine (S.getZ h.ctx h.mv (has_some ?_)).mono fun _ _ => trivial
      simpa [h.lens.prez] using S.nz h.mv
    · rintro ⟨c, s, a⟩ _
      simp only
      split <;> exact .ret
  · exact .ret

variable [Arith F]

/-- What one step of the solver keeps. -/
def Comp.After (Q : MV F D → Prop) (c c' : Comp F D) : Prop :=
  (Q c.mv → Q c'.mv) ∧ c'.eventModeUsed = c.eventModeUsed

theorem eulerStep_safe {c : Comp F D} (h : c.Sound m K J) :
    (eulerStep m c).Safe (Fine fun c' _ => c'.Sound m K J ∧ c.After Q c') := by
  unfold eulerStep
  split
  · refine callCo_safe (h.solve S (R := Ptr.SameLen (some c.x)) (S.getX h.ctx h.mv (has_some (h.lens.x ▸ h.nx)))
      (fun _ _ _ e => .getStates e) (by decide) (by decide)) ?_
    rintro _ p ⟨h1, hp, q1, mv1, rfl⟩
    generalize hc1 : ({ ({ c with mv := mv1 } : Comp F D) with x := p.getD c.x } : Comp F D) = c1
    have h1 : c1.Sound m K J := by
      subst hc1
      exact ⟨h1.ctx, h1.mv, ⟨h1.lens.z, h1.lens.prez, (SameLen.getD hp _).trans h.lens.x, h1.lens.dx⟩, h1.nx, h1.nz⟩
    have a1 : c.After Q c1 := by subst hc1; exact ⟨q1, rfl⟩
    simp only [hc1]
    refine callCo_safe (h1.solve S (R := Ptr.SameLen (some c1.dx)) (S.getDX h1.ctx h1.mv (has_some (h1.lens.dx ▸ h1.nx)))
      (fun _ _ _ e => .deriv e) (by decide) (by decide)) ?_
    rintro _ p ⟨h2, hp, q2, mv2, rfl⟩
    have h2 : ({ c1 with mv := mv2, dx := p.getD c1.dx, x := eulerUpdate m.h c1.nx c1.x (p.getD c1.dx) } : Comp F D).Sound m K J :=
      ⟨h2.ctx, h2.mv, ⟨h2.lens.z, h2.lens.prez, eulerUpdate_length.trans h1.lens.x, (SameLen.getD hp _).trans h1.lens.dx⟩, h2.nx, h2.nz⟩
    refine callCo_safe (h2.solve S (R := fun _ => True) ((S.setX h2.ctx h2.mv (has_some (h2.lens.x ▸ h2.nx))).safe')
      (fun _ _ _ e => .setStates e) (by decide) (by decide)) ?_
    rintro _ p ⟨h3, -, q3, mv3, rfl⟩
    exact .ret (.ok ⟨h3, fun q => q3 (q2 (a1.1 q)), a1.2⟩)
  · exact .ret (.ok ⟨h, id, rfl⟩)

theorem detectStateEvent_safe {c : Comp F D} (h : c.Sound m K J) :
    (detectStateEvent m c).Safe (Fine fun c' _ => c'.Sound m K J ∧ c.After Q c') := by
  unfold detectStateEvent
  split
  · refine callCo_safe (h.solve S (R := Ptr.SameLen (some c.z)) (S.getZ h.ctx h.mv (has_some (h.lens.z ▸ h.nz)))
      (fun _ _ _ e => .indicators e) (by decide) (by decide)) ?_
    rintro _ p ⟨h1, hp, q1, mv1, rfl⟩
    have hz : (p.getD c.z).length = m.maxNZ := (SameLen.getD hp _).trans h.lens.z
    refine .ret (.ok ⟨⟨h1.ctx, h1.mv, ⟨hz, ?_, h1.lens.x, h1.lens.dx⟩, h1.nx, h1.nz⟩, q1, rfl⟩)
    have := h.nz
    simp only [copyN, List.length_append, List.length_take, List.length_drop, hz, h.lens.prez]
    omega
  · exact .ret (.ok ⟨h, id, rfl⟩)

theorem doFixedStep_safe {c : Comp F D} (h : c.Sound m K J) :
    (doFixedStep m c).Safe (Fine fun c' ev => c'.Sound m K J ∧ c.After Q c' ∧ ev ≠ none) := by
  unfold doFixedStep
  refine callCo_safe (eulerStep_safe S h) ?_
  rintro c1 _ ⟨h1, a1⟩
  have h2 : (advanceTime m c1).Sound m K J :=
    ⟨S.const (sameConst_time _ _) h1.ctx, h1.mv, ⟨h1.lens.z, h1.lens.prez, h1.lens.x, h1.lens.dx⟩, h1.nx, h1.nz⟩
  refine callCo_safe (detectStateEvent_safe S h2) ?_
  rintro c3 ev ⟨h3, a3⟩
  refine .ret (.ok ?_)
  split
  · refine ⟨⟨h3.ctx, S.trace _ h3.mv, ⟨h3.lens.z, h3.lens.prez, h3.lens.x, h3.lens.dx⟩, h3.nx, h3.nz⟩,
      ⟨fun q => S.keepTrace _ (a3.1 (a1.1 q)), a3.2.trans a1.2⟩, nofun⟩
  · exact ⟨h3, ⟨fun q => a3.1 (a1.1 q), a3.2.trans a1.2⟩, nofun⟩

/-- Run the event handler. -/
theorem Comp.Sound.event {c : Comp F D} (h : c.Sound m K J) {eu} (he : m.eventUpdate = some eu) (hq : Q c.mv) :
    (c.lift (eu c.ctx c.mv)).Safe (Fine fun c' _ => c'.Sound m K J ∧ Q c'.mv ∧ c'.eventModeUsed = c.eventModeUsed) :=
  (h.run S (S.event he h.ctx h.mv hq) fun _ _ _ e => .event he e).mono fun x hx => by
    obtain ⟨c', s, b⟩ := x
    obtain ⟨h1, h2, h3, mv', h4, h5⟩ := hx
    simp only at h1 h2 h3 h4 h5
    subst h4
    rcases h2 with e | e
    · exact .inl ⟨e, h1, h3 e, rfl⟩
    · exact .inr e

end Verif
