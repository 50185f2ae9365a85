import Verif.Lemmas.RelComp
import Verif.Lemmas.Hist2
import Verif.Spec.Uses

/-!
# Histories of FMI 2.0 calls side by side
-/

set_option linter.unusedSectionVars false

namespace Verif

/-- Optional values that are both absent or both present and related. -/
def OptRel {α : Type} (R : α → α → Prop) : Option α → Option α → Prop
  | none, none => True
  | some a, some b => R a b
  | _, _ => False

theorem OptRel.self {α : Type} {R : α → α → Prop} {o : Option α} (h : ∀ a, o = some a → R a a) :
    OptRel R o o := by
  cases o with
  | none => trivial
  | some a => exact h a rfl

theorem OptRel.mono {α : Type} {R R' : α → α → Prop} {o o' : Option α} (h : OptRel R o o')
    (hr : ∀ a b, R a b → R' a b) : OptRel R' o o' := by
  cases o <;> cases o' <;> first | exact hr _ _ h | exact h

/-- Buffers of the same capacity with related content. -/
def BufRel {F D : Type} (S : Comp F D → Comp F D → Prop) (b b' : Buffer F D) : Prop :=
  b'.capacity = b.capacity ∧ OptRel S b.image b'.image

section
variable {F D : Type} {m : Model F D} {E : MV F D → MV F D → Prop} {τ : Tight} {c c' : Comp F D}
variable (hr : Respects m E) (hτ : τ.OK)
include hr hτ

/-- The event update of `newDiscreteStates`. -/
theorem RRel.eventUpdate {β : Type} {eu : Ctx F → MV F D → MRes F D Unit} (he : m.eventUpdate = some eu)
    {stop : Unit → β} {k k' : Comp F D → Status → Unit → Res F D β} (h : SRel m E τ c c')
    (hk : ∀ c c' st, SRel m E τ c c' → c'.mv.eventInfo = c.mv.eventInfo →
      RRel (SRel m E τ) (k c st ()) (k' c' st ())) :
    RRel (SRel m E τ) (Verif.call .OK (c.lift (eu c.ctx c.mv)) stop k)
      (Verif.call .OK (c'.lift (eu c'.ctx c'.mv)) stop k') := by
  unfold Verif.call Comp.lift
  rw [Outcome.bind_assoc, Outcome.bind_assoc]
  refine Outcome.Rel.bind (hr.event he h.ctx h.mv) ?_
  rintro ⟨mv, s, u⟩ ⟨mv', s', u'⟩ ⟨h1, h2, h3⟩
  simp only [Prod.mk.injEq] at h1 h2 h3
  obtain ⟨rfl, -⟩ := h2
  simp only [Outcome.ret_bind]
  have h4 := h.upd h1
  split
  · exact RRel.ret h4
  · exact RRel.ret (h4.term hτ)
  · exact RRel.ret (h4.fatal hτ)
  · next n1 n2 n3 =>
    refine hk _ _ _ h4 (h3 ?_)
    rintro rfl
    simp [Status.rank] at n2

omit hτ in
/-- The event update inside a step. -/
theorem RRel.liftEvent {eu : Ctx F → MV F D → MRes F D Unit} (he : m.eventUpdate = some eu)
    (h : SRel m E τ c c') :
    RRel (SRel m E τ) (c.lift (eu c.ctx c.mv)) (c'.lift (eu c'.ctx c'.mv)) :=
  .lift (Outcome.Rel.mono (hr.event he h.ctx h.mv) fun _ _ h => ⟨h.1, h.2.1⟩) h
end

section
variable {F D : Type} {m : Model F D} {E : MV F D → MV F D → Prop} {τ : Tight}

theorem shown_of_rel {W α : Type} {Q : W → W → Prop} {r r' : Outcome (W × α)}
    (h : r.Rel (fun x x' => Q x.1 x'.1 ∧ x.2 = x'.2) r') : r.shown = r'.shown := by
  cases r <;> cases r' <;> first | rfl | exact h.elim | skip
  rename_i a b
  obtain ⟨x, y⟩ := a; obtain ⟨x', y'⟩ := b
  have h2 : y = y' := h.2
  subst h2; rfl

/-- The arrays of a new instance. -/
theorem createModelInstance_lens [Arith F] {c : Comp F D} {ver3 logger iu name token resource loggingOn mem typ l}
    (h : createModelInstance m ver3 logger iu name token resource loggingOn mem typ = (some c, l)) :
    c.Lens m := by
  unfold createModelInstance at h
  simp only at h
  repeat' split at h
  all_goals first | (simp at h; done) | skip
  obtain ⟨h, -⟩ := Prod.mk.inj h
  cases h
  constructor <;> simp

theorem SRel.self {c : Comp F D} (hE : ∀ mv, E mv mv) (h : c.Lens m) : SRel m E τ c c :=
  ⟨.refl _, hE _, rfl, rfl, rfl, rfl, h, h, fun _ => ⟨rfl, rfl⟩, fun _ _ => rfl,
    fun _ _ => ⟨rfl, rfl⟩⟩

theorem BufRel.self {S : Comp F D → Comp F D → Prop} {b : Buffer F D}
    (h : ∀ s, b.image = some s → S s s) : BufRel S b b := ⟨rfl, .self h⟩

end

namespace FMI2
variable {F D : Type} {m : Model F D} {E : MV F D → MV F D → Prop} {τ : Tight} {c c' : Comp F D}

/-- The mode changes of FMI 2.0 except `fmi2EnterInitializationMode` keep the relation. -/
structure TightPre (τ : Tight) : Prop extends τ.OK where
  initC : τ.C .initializationMode → τ.C .instantiated
  eventT : τ.T .eventMode → τ.T .initializationMode
  stepT : τ.T .stepComplete → τ.T .initializationMode
  eventT' : τ.T .eventMode → τ.T .continuousTimeMode
  eventC' : τ.C .eventMode → τ.C .continuousTimeMode
  ctT : τ.T .continuousTimeMode → τ.T .eventMode
  ctC : τ.C .continuousTimeMode → τ.C .eventMode
  resetT : ∀ s, τ.T .instantiated → τ.T s
  resetC : ∀ s, τ.C .instantiated → τ.C s
  stepT' : τ.T .stepComplete
  stepC' : τ.C .stepComplete

/-- The mode changes of FMI 2.0 keep the relation. -/
structure TightOK (τ : Tight) : Prop extends TightPre τ where
  initT : τ.T .initializationMode → τ.T .instantiated

theorem TightOK.full : TightOK Tight.full := by
  constructor
  · constructor
    · exact Tight.full_ok
    all_goals intros; trivial
  · intros; trivial

section
variable (hr : Respects m E) (hτ : τ.OK)
include hr hτ
local notation "S" => SRel m E τ

theorem getVariables_rel {t : VType} {vr : Ptr Nat} {n : Nat} {v : Ptr (t.Val F)} (h : S c c') :
    RRel S (getVariables m t vr n v c) (getVariables m t vr n v c') := by
  unfold getVariables
  split
  · exact .ret h
  · exact .nonNull hr hτ h (.nonNull hr hτ h (.refresh hr hτ h fun _ _ _ h _ =>
      .then (.getLoop hr hτ h) fun _ _ _ _ h => .ret h))

theorem setVariables_rel {t : VType} {vr : Ptr Nat} {n : Nat} {v : Ptr (t.Val F)} (h : S c c') :
    RRel S (setVariables m t vr n v c) (setVariables m t vr n v c') := by
  unfold setVariables
  split
  · exact .ret h
  · exact .nonNull hr hτ h (.nonNull hr hτ h (.then (.setLoop hr hτ h) fun _ _ _ _ h =>
      .ite Iff.rfl (fun _ => .ret h) fun _ => .ret (h.dirty hr _)))

theorem getBooleanLoop_rel {vr : Ptr Nat} {nvr : Nat} : ∀ {n i : Nat} {c c' : Comp F D} {st : Status}
    {v : Ptr Int}, S c c' →
    RRel S (getBooleanLoop m vr nvr n i c st v) (getBooleanLoop m vr nvr n i c' st v) := by
  intro n
  induction n with
  | zero => intro i c c' st v h; exact .ret h
  | succ n ih =>
    intro i c c' st v h
    unfold getBooleanLoop
    exact .bind fun _ _ => .call hτ (.lift (hr.get _ _ _ _ _ h.ctx h.mv) h) fun _ _ _ _ h =>
      .bind fun _ _ => .bind fun _ _ => ih h

theorem setBooleanLoop_rel {vr : Ptr Nat} {nvr : Nat} {v : Ptr Int} :
    ∀ {n i : Nat} {c c' : Comp F D} {st : Status}, S c c' →
    RRel S (setBooleanLoop m vr nvr v n i c st) (setBooleanLoop m vr nvr v n i c' st) := by
  intro n
  induction n with
  | zero => intro i c c' st h; exact .ret h
  | succ n ih =>
    intro i c c' st h
    unfold setBooleanLoop
    exact .bind fun _ _ => .bind fun _ _ => .call hτ (.lift (hr.set _ _ _ _ _ h.ctx h.mv) h)
      fun _ _ _ _ h => ih h

theorem getStatusAux_rel {s : StatusKind} (h : S c c') :
    RRel S (getStatusAux c s) (getStatusAux c' s) := by
  unfold getStatusAux
  cases s <;> first | exact .ret (h.log hr _) | exact .ret h

end

section
variable [Arith F] (hr : Respects m E)
include hr
local notation "Fu" => SRel m E Tight.full

theorem handleEvents_rel {β : Type} {st : Status} {ev : Option (Bool × Bool)} {stop : β}
    {k k' : Comp F D → Status → Res F D β} (h : Fu c c')
    (hk : ∀ c c' st, Fu c c' → RRel Fu (k c st) (k' c' st)) :
    RRel Fu (handleEvents m c st ev stop k) (handleEvents m c' st ev stop k') := by
  unfold handleEvents
  cases he : m.eventUpdate with
  | none => exact hk _ _ _ h
  | some eu =>
    simp only
    cases ev with
    | none => trivial
    | some e =>
      simp only
      exact .iteB rfl (fun _ => .call Tight.full_ok (.liftEvent hr he h) fun _ _ _ _ h => hk _ _ _ h)
        fun _ => hk _ _ _ h

theorem doStepLoop_rel {next : F} : ∀ {fuel : Nat} {c c' : Comp F D} {st : Status}, Fu c c' →
    RRel Fu (doStepLoop m next fuel c st) (doStepLoop m next fuel c' st) := by
  intro fuel
  induction fuel with
  | zero => intros; trivial
  | succ n ih =>
    intro c c' st h
    unfold doStepLoop
    simp only [h.ctx.time]
    refine .iteB rfl (fun _ => .ret ?_) fun _ => ?_
    · exact ⟨h.ctx, h.mv, h.start, h.steps, h.early, h.evm,
        ⟨h.lens.z, h.lens.prez, h.lens.x, h.lens.dx⟩,
        ⟨h.lens'.z, h.lens'.prez, h.lens'.x, h.lens'.dx⟩,
        fun t => ⟨(h.times t).1, rfl⟩, h.nx, h.nz⟩
    · refine .call Tight.full_ok (doFixedStep_rel hr h) fun _ _ _ _ h => ?_
      refine handleEvents_rel hr h fun c c' _ h => ?_
      exact .iteB (hr.term h.mv) (fun _ => .ret h) fun _ => ih h

theorem doStep_rel (ht : TightPre τ) {fuel : Nat} {ccp step : F} (h : SRel m E τ c c') :
    RRel (SRel m E τ) (doStep m fuel c ccp step) (doStep m fuel c' ccp step) := by
  unfold doStep
  refine .begin2 hr ht.toOK h fun ha => ?_
  have hs : c.ctx.state = .stepComplete := by
    revert ha; cases e : c.ctx.state <;> simp [allowed, e] <;> decide
  have hf : Fu c c' := h.toFull (hs ▸ ht.stepT') (hs ▸ ht.stepC')
  obtain ⟨e1, e2⟩ := hf.times trivial
  refine RRel.mono ?_ fun _ _ h => SRel.ofFull h
  simp only [e1, e2]
  refine .iteB rfl (fun _ => .fail2 hr Tight.full_ok hf) fun _ => ?_
  refine .iteB rfl (fun _ => .fail2 hr Tight.full_ok hf) fun _ => ?_
  exact .iteB rfl (fun _ => .fail2 hr Tight.full_ok hf) fun _ => doStepLoop_rel hr hf

end

/-- Related worlds: related instances, and related contents of the FMU-state variables in `A` and
the buffers in `B`. -/
structure WRel (S : Comp F D → Comp F D → Prop) (A B : Nat → Prop) (w w' : World F D) : Prop where
  inst : S w.inst w'.inst
  slots : ∀ i, A i → OptRel S (w.slots i) (w'.slots i)
  bufs : ∀ i, B i → OptRel (BufRel S) (w.bufs i) (w'.bufs i)

section
variable {S : Comp F D → Comp F D → Prop} {A B : Nat → Prop} {w w' : World F D}

/-- Related results of calls. -/
def OutRel (S : Comp F D → Comp F D → Prop) (A B : Nat → Prop)
    (r r' : Outcome (World F D × Status × Out F)) : Prop :=
  r.Rel (fun x x' => WRel S A B x.1 x'.1 ∧ x.2 = x'.2) r'

theorem WRel.run {β : Type} (h : WRel S A B w w') {r r' : Res F D β} {out : β → Out F}
    (hr : RRel S r r') : OutRel S A B (w.run r out) (w'.run r' out) :=
  Outcome.Rel.bind hr fun a b hab => by
    obtain ⟨c, s, x⟩ := a; obtain ⟨c', x'⟩ := b
    obtain ⟨h1, h2⟩ := hab; simp only at h2; subst h2
    exact ⟨⟨h1, h.slots, h.bufs⟩, rfl⟩

/-- Related results whose outputs are related contents of variables. -/
def VRel {α : Type} (S : Comp F D → Comp F D → Prop) (R : α → α → Prop)
    (r r' : Res F D (Option α)) : Prop :=
  r.Rel (fun x x' => S x.1 x'.1 ∧ x.2.1 = x'.2.1 ∧ OptRel R x.2.2 x'.2.2) r'

theorem WRel.runSlot (h : WRel S A B w w') {i : Nat} {r r' : Res F D (Option (Comp F D))}
    (hr : VRel S S r r') : OutRel S A B (w.runSlot i r) (w'.runSlot i r') :=
  Outcome.Rel.bind hr fun a b hab => by
    obtain ⟨c, s, x⟩ := a; obtain ⟨c', s', x'⟩ := b
    obtain ⟨h1, h2, h3⟩ := hab; simp only at h2 h3; subst h2
    refine ⟨⟨h1, fun j hj => ?_, h.bufs⟩, rfl⟩
    simp only
    split
    · exact h3
    · exact h.slots j hj

theorem WRel.runBuf (h : WRel S A B w w') {i : Nat} {r r' : Res F D (Option (Buffer F D))}
    (hr : VRel S (BufRel S) r r') : OutRel S A B (w.runBuf i r) (w'.runBuf i r') :=
  Outcome.Rel.bind hr fun a b hab => by
    obtain ⟨c, s, x⟩ := a; obtain ⟨c', s', x'⟩ := b
    obtain ⟨h1, h2, h3⟩ := hab; simp only at h2 h3; subst h2
    refine ⟨⟨h1, h.slots, fun j hj => ?_⟩, rfl⟩
    simp only
    split
    · exact h3
    · exact h.bufs j hj
end

theorem VRel.begin {α : Type} {R : α → α → Prop} (hr : Respects m E) (hτ : τ.OK) {mask : Nat}
    {name : String} (h : SRel m E τ c c') {stop stop' : Option α} (hs : OptRel R stop stop')
    {k k' : Comp F D → Res F D (Option α)} (hk : VRel (SRel m E τ) R (k c) (k' c')) :
    VRel (SRel m E τ) R (begin mask name c stop k) (begin mask name c' stop' k') := by
  unfold FMI2.begin beginFunction
  have : allowed c'.ctx mask = allowed c.ctx mask := by simp [allowed, h.state]
  rw [this]
  split
  · exact hk
  · exact ⟨(h.log hr _).term hτ, rfl, hs⟩

variable [Arith F] [HasInf F]

set_option maxHeartbeats 1000000 in
theorem step_rel (hr : Respects m E) (ht : TightPre τ) {A B : Nat → Prop} {fuel : Nat}
    {w w' : World F D} (hw : WRel (SRel m E τ) A B w w') (op : Op F) (ha : ∀ i ∈ op.slots, A i)
    (hb : ∀ i ∈ op.bufs, B i)
    (hinit : op = .enterInitializationMode → τ.T .initializationMode → τ.T .instantiated) :
    OutRel (SRel m E τ) A B (step m fuel w op) (step m fuel w' op) := by
  have hτ := ht.toOK
  have h := hw.inst
  have hc := h.ctx
  have hm := h.mv
  cases op <;> simp only [step]
  case setDebugLogging =>
    exact hw.run (.begin2 hr hτ h fun _ => .callLast hτ (.setDebugLogging hr hτ h))
  case setupExperiment a d b =>
    refine hw.run (.begin2 hr hτ h fun _ => .ret ?_)
    have h1 := CRel.setTime h a
    exact ⟨h1.ctx, h1.mv, rfl, h1.steps, h1.early, h1.evm,
      ⟨h.lens.z, h.lens.prez, h.lens.x, h.lens.dx⟩,
      ⟨h.lens'.z, h.lens'.prez, h.lens'.x, h.lens'.dx⟩, fun _ => ⟨rfl, rfl⟩, h.nx, h.nz⟩
  case enterInitializationMode =>
    refine hw.run (.begin2 hr hτ h fun ha => .ret ?_)
    have hs := (allowed_inst _).1 ha
    exact h.to _ (fun t => hs ▸ hinit rfl t) fun t => hs ▸ ht.initC t
  case exitInitializationMode =>
    refine hw.run ?_
    unfold exitInitializationMode
    refine .begin2 hr hτ h fun ha => ?_
    have hs := (allowed_init _).1 ha
    refine .refresh hr hτ h fun d d' st hd hctx => ?_
    simp only [hd.ctx.typ]
    refine .call hτ (configurate_srel hr _ hd ?_) fun _ _ _ _ h => .ret h
    rw [hctx, hs]
    split
    · exact ht.eventT
    · exact ht.stepT
  case terminate => exact hw.run (.begin2 hr hτ h fun _ => .ret (h.term hτ))
  case reset =>
    exact hw.run (.begin2 hr hτ h fun _ => .callLast hτ (reset_rel hr h (ht.resetT _) (ht.resetC _)))
  case getReal => exact hw.run (.begin2 hr hτ h fun _ => getVariables_rel hr hτ h)
  case getInteger => exact hw.run (.begin2 hr hτ h fun _ => getVariables_rel (t := .int32) hr hτ h)
  case getBoolean => exact hw.run (.begin2 hr hτ h fun _ => getBooleanLoop_rel hr hτ h)
  case getString => exact hw.run (.begin2 hr hτ h fun _ => getVariables_rel (t := .string) hr hτ h)
  case setReal => exact hw.run (.begin2 hr hτ h fun _ => setVariables_rel hr hτ h)
  case setInteger => exact hw.run (.begin2 hr hτ h fun _ => setVariables_rel (t := .int32) hr hτ h)
  case setBoolean => exact hw.run (.begin2 hr hτ h fun _ => setBooleanLoop_rel hr hτ h)
  case setString => exact hw.run (.begin2 hr hτ h fun _ => setVariables_rel (t := .string) hr hτ h)
  case getFMUstate i =>
    exact hw.runSlot (VRel.begin hr hτ h (hw.slots i (ha i (by simp [Op.slots]))) ⟨h, rfl, h⟩)
  case setFMUstate i =>
    refine hw.run (.begin2 hr hτ h fun _ => ?_)
    have hs := hw.slots i (ha i (by simp [Op.slots]))
    revert hs
    cases w.slots i <;> cases w'.slots i <;> intro hs
    · exact .ret (h.log hr _)
    · exact hs.elim
    · exact hs.elim
    · exact .ret (setFMUState_rel hr hc h.lens h.lens' hs)
  case freeFMUstate i =>
    exact hw.runSlot (VRel.begin hr hτ h (hw.slots i (ha i (by simp [Op.slots]))) ⟨h, rfl, trivial⟩)
  case serializedFMUstateSize n =>
    refine hw.run (.begin2 hr hτ h fun _ => ?_)
    cases n
    · trivial
    · exact .ret h
  case serializeFMUstate i b n =>
    have hs := hw.slots i (ha i (by simp [Op.slots]))
    have hbb := hw.bufs b (hb b (by simp [Op.bufs]))
    refine hw.runBuf (VRel.begin hr hτ h hbb ?_)
    revert hs
    cases w.slots i <;> cases w'.slots i <;> intro hs
    · exact ⟨h.invalidArg hr hτ _, rfl, hbb⟩
    · exact hs.elim
    · exact hs.elim
    · simp only
      split
      · exact ⟨h.invalidArg hr hτ _, rfl, hbb⟩
      · revert hbb
        cases w.bufs b <;> cases w'.bufs b <;> intro hbb
        · trivial
        · exact hbb.elim
        · exact hbb.elim
        · obtain ⟨e1, e2⟩ := hbb
          simp only [Buffer.store, e1]
          split
          · trivial
          · exact ⟨h, rfl, rfl, hs⟩
  case deSerializeFMUstate b n i =>
    have hs := hw.slots i (ha i (by simp [Op.slots]))
    have hbb := hw.bufs b (hb b (by simp [Op.bufs]))
    refine hw.runSlot (VRel.begin hr hτ h hs ?_)
    split
    · exact ⟨h.invalidArg hr hτ _, rfl, hs⟩
    · revert hbb
      cases w.bufs b <;> cases w'.bufs b <;> intro hbb
      · trivial
      · exact hbb.elim
      · exact hbb.elim
      · next b1 b2 =>
        obtain ⟨e1, e2⟩ := hbb
        simp only [Buffer.load, e1]
        split
        · trivial
        · revert e2
          cases b1.image <;> cases b2.image <;> intro e2
          · trivial
          · exact e2.elim
          · exact e2.elim
          · exact ⟨h, rfl, e2⟩
  case getDirectionalDerivative => exact hw.run (.begin2 hr hτ h fun _ => .derivOuter hr hτ h)
  case setRealInputDerivatives => exact hw.run (.begin2 hr hτ h fun _ => .fail2 hr hτ h)
  case getRealOutputDerivatives =>
    refine hw.run (.begin2 hr hτ h fun _ => ?_)
    cases he : m.getOutputDerivative with
    | none => exact .fail2 hr hτ h
    | some f => exact .outputDerivLoop hr hτ he h
  case cancelStep => exact hw.run (.begin2 hr hτ h fun _ => .fail2 hr hτ h)
  case doStep => exact hw.run (doStep_rel hr ht h)
  case getStatus => exact hw.run (.begin2 hr hτ h fun _ => .callLast hτ (getStatusAux_rel hr hτ h))
  case getRealStatus s v =>
    refine hw.run (.begin2 hr hτ h fun _ => .ite Iff.rfl (fun _ => ?_) fun _ =>
      .callLast hτ (getStatusAux_rel hr hτ h))
    cases v
    · trivial
    · exact .ret' h rfl (by simp [hc.time])
  case getIntegerStatus =>
    exact hw.run (.begin2 hr hτ h fun _ => .callLast hτ (getStatusAux_rel hr hτ h))
  case getBooleanStatus s v =>
    refine hw.run (.begin2 hr hτ h fun _ => .ite Iff.rfl (fun _ => ?_) fun _ =>
      .callLast hτ (getStatusAux_rel hr hτ h))
    cases v
    · trivial
    · exact .ret' h rfl (by simp [hr.term hm])
  case getStringStatus =>
    exact hw.run (.begin2 hr hτ h fun _ => .callLast hτ (getStatusAux_rel hr hτ h))
  case enterEventMode =>
    refine hw.run (.begin2 hr hτ h fun ha => .ret ?_)
    refine h.to _ (fun t => ?_) fun t => ?_
    · rcases (allowed_eventCT _).1 ha with e | e
      · exact e ▸ t
      · exact e ▸ ht.eventT' t
    · rcases (allowed_eventCT _).1 ha with e | e
      · exact e ▸ t
      · exact e ▸ ht.eventC' t
  case newDiscreteStates i =>
    refine hw.run (.begin2 hr hτ h fun ha => ?_)
    cases he : m.eventUpdate with
    | none =>
      simp only
      cases i
      · trivial
      · exact .ret' h rfl (by rw [hr.info hm he])
    | some eu =>
      refine .eventUpdate hr hτ he h fun c c' st h e => ?_
      cases i
      · trivial
      · exact .ret' h rfl (by rw [e])
  case enterContinuousTimeMode =>
    refine hw.run (.begin2 hr hτ h fun ha => .ret ?_)
    have hs := (allowed_event _).1 ha
    exact h.to _ (fun t => hs ▸ ht.ctT t) fun t => hs ▸ ht.ctC t
  case completedIntegratorStep =>
    refine hw.run (.begin2 hr hτ h fun _ => .iteB rfl (fun _ => .ret (h.invalidArg hr hτ _))
      fun _ => .ret h)
  case setTime t => exact hw.run (.begin2 hr hτ h fun _ => .ret (CRel.setTime h t))
  case setContinuousStates =>
    exact hw.run (.begin2 hr hτ h fun _ => .callLast hτ (.lift (hr.setStates _ _ hc hm) h))
  case getDerivatives =>
    exact hw.run (.begin2 hr hτ h fun _ => .callLast hτ (.lift (hr.deriv _ _ hc hm) h))
  case getEventIndicators =>
    exact hw.run (.begin2 hr hτ h fun _ => .callLast hτ (.lift (hr.indicators _ _ hc hm) h))
  case getContinuousStates =>
    exact hw.run (.begin2 hr hτ h fun _ => .callLast hτ (.lift (hr.getStates _ _ hc hm) h))
  case getNominals =>
    exact hw.run (.begin2 hr hτ h fun _ => .callLast hτ (.lift (hr.nominals _ _ hc hm) h))

/-- Related worlds show the same under the same calls. -/
theorem run_rel' (hr : Respects m E) (ht : TightPre τ) {A B : Nat → Prop} {fuel : Nat} :
    ∀ (ops : List (Op F)) {w w' : World F D}, WRel (SRel m E τ) A B w w' →
    (∀ op ∈ ops, (∀ i ∈ op.slots, A i) ∧ ∀ i ∈ op.bufs, B i) →
    (∀ op ∈ ops, op = .enterInitializationMode → τ.T .initializationMode → τ.T .instantiated) →
    (run m fuel w ops).Rel (fun x x' => WRel (SRel m E τ) A B x.1 x'.1 ∧ x.2 = x'.2)
      (run m fuel w' ops) := by
  intro ops
  induction ops with
  | nil => intro w w' h _ _; exact ⟨h, rfl⟩
  | cons op ops ih =>
    intro w w' h ho hi
    unfold run
    have h0 := ho op (by simp)
    refine Outcome.Rel.bind (step_rel hr ht h op h0.1 h0.2 (hi op (by simp))) ?_
    rintro ⟨w1, s, o⟩ ⟨w1', so'⟩ ⟨h1, h2⟩
    simp only at h1 h2
    subst h2
    refine Outcome.Rel.bind (ih h1 (fun op hop => ho op (by simp [hop])) fun op hop => hi op (by simp [hop])) ?_
    rintro ⟨w2, l⟩ ⟨w2', l'⟩ ⟨h1, h2⟩
    simp only at h1 h2
    subst h2
    exact ⟨h1, rfl⟩

/-- Related worlds show the same under the same calls. -/
theorem run_rel (hr : Respects m E) (ht : TightOK τ) {A B : Nat → Prop} {fuel : Nat}
    (ops : List (Op F)) {w w' : World F D} (h : WRel (SRel m E τ) A B w w')
    (ho : ∀ op ∈ ops, (∀ i ∈ op.slots, A i) ∧ ∀ i ∈ op.bufs, B i) :
    (run m fuel w ops).Rel (fun x x' => WRel (SRel m E τ) A B x.1 x'.1 ∧ x.2 = x'.2)
      (run m fuel w' ops) :=
  run_rel' hr ht.toTightPre ops h ho fun _ _ _ => ht.initT

/-- Reachable worlds are related to themselves. -/
theorem Reachable.self {t : IType} {w : World F D} (hr : Respects m E) (hE : ∀ mv, E mv mv)
    (h : Reachable m t w) : WRel (SRel m E Tight.full) (fun _ => True) (fun _ => True) w w := by
  obtain ⟨name, guid, resource, functions, loggingOn, mem, c, l, w₀, fuel, ops, outs, h1, h2, h3⟩ := h
  have hl : c.Lens m := by
    unfold instantiate at h1
    split at h1
    · simp at h1
    · simp at h1
    · exact createModelInstance_lens h1
  have h0 : WRel (SRel m E Tight.full) (fun _ => True) (fun _ => True) w₀ w₀ := by
    refine ⟨?_, ?_, ?_⟩
    · rw [h2.inst]; exact SRel.self hE hl
    · intro i _; rw [h2.slots]; trivial
    · intro i _
      refine .self fun b hb => .self fun s hs => ?_
      rw [h2.bufs i b hb] at hs; cases hs
  have := run_rel hr TightOK.full (fuel := fuel) ops h0 fun _ _ => ⟨fun _ _ => trivial, fun _ _ => trivial⟩
  rw [h3] at this
  exact this.1

/-- A call changes only the variables it writes. -/
theorem step_frame {fuel : Nat} {w w' : World F D} {op : Op F} {s o}
    (h : step m fuel w op = .ret (w', s, o)) :
    (∀ i, i ∉ op.slotsWritten → w'.slots i = w.slots i) ∧
    ∀ i, i ∉ op.bufsWritten → w'.bufs i = w.bufs i := by
  cases op <;> simp only [step, World.run, World.runSlot, World.runBuf] at h <;>
    (obtain ⟨x, -, h⟩ := Outcome.bind_eq_ret.1 h; cases h; constructor <;> intro j hj) <;>
    first
    | rfl
    | (simp only [Op.slotsWritten, List.mem_singleton] at hj; simp [hj])
    | (simp only [Op.bufsWritten, List.mem_singleton] at hj; simp [hj])

theorem run_frame {fuel : Nat} {ops : List (Op F)} : ∀ {w w' : World F D} {l},
    run m fuel w ops = .ret (w', l) →
    (∀ i, (∀ op ∈ ops, i ∉ op.slotsWritten) → w'.slots i = w.slots i) ∧
    ∀ i, (∀ op ∈ ops, i ∉ op.bufsWritten) → w'.bufs i = w.bufs i := by
  induction ops with
  | nil => intro w w' l h; cases h; exact ⟨fun _ _ => rfl, fun _ _ => rfl⟩
  | cons op ops ih =>
    intro w w' l h
    simp only [run] at h
    obtain ⟨⟨w1, s, o⟩, e1, h⟩ := Outcome.bind_eq_ret.1 h
    obtain ⟨⟨w2, l2⟩, e2, h⟩ := Outcome.bind_eq_ret.1 h
    cases h
    have f1 := step_frame e1
    have f2 := ih e2
    exact ⟨fun i hi => (f2.1 i fun op hop => hi op (by simp [hop])).trans (f1.1 i (hi op (by simp))),
      fun i hi => (f2.2 i fun op hop => hi op (by simp [hop])).trans (f1.2 i (hi op (by simp)))⟩

/-- The parts of the context no call changes. -/
def sameConst (c d : Ctx F) : Prop :=
  d.typ = c.typ ∧ d.resourceLocation = c.resourceLocation ∧ d.clockUpdate = c.clockUpdate ∧
    d.lockPreemption = c.lockPreemption ∧ d.unlockPreemption = c.unlockPreemption

theorem HistInv.const (m : Model F D) (x : Ctx F) : HistInv m fun c => sameConst x c.ctx where
  lift h _ _ := h
  log _ h := h
  dirty _ h := h
  adv h _ := h
  iu h _ := h
  ncp _ h := h
  nx h := h
  nz h := h
  x _ h := h
  dx _ h := h
  z _ h := h
  prez _ h := h
  flags _ _ h := h
  term h := h
  setup _ _ h _ := h
  enterInit h _ := h
  exitInit h _ := h
  reset h := Outcome.all_ret.2 h
  restore h _ := h
  enterEvent h _ := h
  enterCT h _ := h
  setTime _ h _ := h

theorem sameConst.rel {c d : Ctx F} (h : sameConst c d) :
    CtxRel c { d with time := c.time, state := c.state } := by
  obtain ⟨h1, h2, h3, h4, h5⟩ := h
  refine ⟨d.logErrors, d.logEvents, d.logger, ?_⟩
  cases c; cases d; simp_all

end FMI2
end Verif
