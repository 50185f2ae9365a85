import Verif.Lemmas.RelHist2
import Verif.Lemmas.Hist3

/-!
# Histories of FMI 3.0 calls side by side
-/

set_option linter.unusedSectionVars false

namespace Verif
namespace FMI3
variable {F D : Type} {m : Model F D} {E : MV F D → MV F D → Prop} {τ : Tight} {c c' : Comp F D}

/-- The mode changes of FMI 3.0 keep the relation; `fmi3EnterStepMode` in Initialization Mode is
treated separately. -/
structure TightOK (τ : Tight) : Prop extends τ.OK where
  initC : τ.C .initializationMode → τ.C .instantiated
  afterInit : ∀ s, s = .eventMode ∨ s = .stepMode ∨ s = .clockActivationMode →
    τ.T s → τ.T .initializationMode
  event : ∀ s, s = .continuousTimeMode ∨ s = .stepMode →
    (τ.T .eventMode → τ.T s) ∧ (τ.C .eventMode → τ.C s)
  ct : (τ.T .continuousTimeMode → τ.T .eventMode) ∧ (τ.C .continuousTimeMode → τ.C .eventMode)
  step : (τ.T .stepMode → τ.T .eventMode) ∧ (τ.C .stepMode → τ.C .eventMode)
  config : (τ.T .configurationMode → τ.T .instantiated) ∧
    (τ.C .configurationMode → τ.C .instantiated)
  reconfig : ∀ s, s = .stepMode ∨ s = .eventMode ∨ s = .clockActivationMode →
    (τ.T .reconfigurationMode → τ.T s) ∧ (τ.C .reconfigurationMode → τ.C s)
  exitConfig : τ.T .instantiated → τ.T .configurationMode
  exitReconfig : ∀ s, s = .eventMode ∨ s = .stepMode ∨ s = .clockActivationMode →
    τ.T s → τ.T .reconfigurationMode
  resetT : ∀ s, τ.T .instantiated → τ.T s
  resetC : ∀ s, τ.C .instantiated → τ.C s
  stepT' : τ.T .stepMode
  stepC' : τ.C .stepMode

theorem TightOK.full : TightOK Tight.full := by
  constructor
  · exact Tight.full_ok
  all_goals first | (intros; trivial) | (intros; exact ⟨fun _ => trivial, fun _ => trivial⟩)

section
variable (hr : Respects m E) (hτ : τ.OK)
include hr hτ
local notation "S" => SRel m E τ

theorem getVars_rel {t : VType} {vr : Ptr Nat} {n : Nat} {v : Ptr (t.Val F)} {nv : Nat} (h : S c c') :
    RRel S (getVars m t c vr n v nv) (getVars m t c' vr n v nv) := by
  unfold getVars
  refine .begin3 hr hτ h fun _ => .ite Iff.rfl (fun _ => .ret h) fun _ => .nonNull hr hτ h ?_
  have key : RRel S
      (refresh m .OK c v fun c st => getLoop m t vr nv n 0 c st v 0 >>- fun (c, st, (values, index)) =>
        if st = .Discard ∨ st = .Error ∨ st = .Fatal then .ret (c, st, values)
        else if t ≠ .binary ∧ index ≠ nv then fail c "Expected nValues = %zu but was %zu." values
        else .ret (c, st, values))
      (refresh m .OK c' v fun c st => getLoop m t vr nv n 0 c st v 0 >>- fun (c, st, (values, index)) =>
        if st = .Discard ∨ st = .Error ∨ st = .Fatal then .ret (c, st, values)
        else if t ≠ .binary ∧ index ≠ nv then fail c "Expected nValues = %zu but was %zu." values
        else .ret (c, st, values)) := by
    refine .refresh hr hτ h fun _ _ _ h _ => .then (.getLoop hr hτ h) fun _ _ _ _ h => ?_
    exact .ite Iff.rfl (fun _ => .ret h) fun _ => .ite Iff.rfl (fun _ => .fail3 hr hτ h) fun _ => .ret h
  simp only
  split
  · exact .nonNull hr hτ h key
  · exact key

theorem setVars_rel {t : VType} {vr : Ptr Nat} {n : Nat} {v : Ptr (t.Val F)} {nv : Nat} (h : S c c') :
    RRel S (setVars m t c vr n v nv) (setVars m t c' vr n v nv) := by
  unfold setVars
  refine .begin3 hr hτ h fun _ => .ite Iff.rfl (fun _ => .ret h) fun _ => .nonNull hr hτ h ?_
  refine .then (.setLoop hr hτ h) fun _ _ _ _ h => .ite Iff.rfl (fun _ => .ret h) fun _ => ?_
  have h := h.dirty hr true
  exact .ite Iff.rfl (fun _ => .fail3 hr hτ h) fun _ => .ret h

theorem getClockLoop_rel {vr : Ptr Nat} : ∀ {n i : Nat} {c c' : Comp F D} {st : Status}
    {v : Ptr Bool}, S c c' →
    RRel S (getClockLoop m vr n i c st v) (getClockLoop m vr n i c' st v) := by
  intro n
  induction n with
  | zero => intro i c c' st v h; exact .ret h
  | succ n ih =>
    intro i c c' st v h
    unfold getClockLoop
    exact .bind fun _ _ => .bind fun _ _ => .then (.lift (hr.getClock _ _ h.ctx h.mv) h)
      fun _ _ _ _ h => .bind fun _ _ => .call hτ (.ret h) fun _ _ _ _ h => ih h

theorem setClockLoop_rel {vr : Ptr Nat} {v : Ptr Bool} : ∀ {n i : Nat} {c c' : Comp F D} {st : Status},
    S c c' → RRel S (setClockLoop m vr v n i c st) (setClockLoop m vr v n i c' st) := by
  intro n
  induction n with
  | zero => intro i c c' st h; exact .ret h
  | succ n ih =>
    intro i c c' st h
    unfold setClockLoop
    refine .bind fun _ _ => .iteB rfl (fun _ => .bind fun _ _ => ?_) fun _ => ih h
    exact .call hτ (.lift (hr.activate _ h.ctx h.mv) h) fun _ _ _ _ h => ih h

theorem getIntervalLoop_rel {vr : Ptr Nat} : ∀ {n i : Nat} {c c' : Comp F D} {st : Status}
    {v : Ptr F × Ptr Int}, S c c' →
    RRel S (getIntervalLoop m vr n i c st v) (getIntervalLoop m vr n i c' st v) := by
  intro n
  induction n with
  | zero => intro i c c' st v h; exact .ret h
  | succ n ih =>
    intro i c c' st v h
    unfold getIntervalLoop
    refine .bind fun _ _ => .bind fun _ _ => .bind fun _ _ =>
      .then (.lift (hr.getInterval _ _ _ h.ctx h.mv) h) fun _ _ _ _ h =>
      .bind fun _ _ => .bind fun _ _ => .call hτ (.ret h) fun _ _ _ _ h => ih h

end

section
variable [Arith F] (hr : Respects m E)
include hr
local notation "Fu" => SRel m E Tight.full

theorem doStepEnd_rel {next : F} {out : StepOut F} {st : Status} {ehn reached : Bool} (h : Fu c c') :
    RRel Fu (doStepEnd next out c st ehn reached) (doStepEnd next out c' st ehn reached) := by
  unfold doStepEnd
  cases out.lastSuccessfulTime with
  | none => trivial
  | some _ =>
    refine .ret' ?_ rfl ?_
    · exact ⟨h.ctx, h.mv, h.start, h.steps, h.early, h.evm,
        ⟨h.lens.z, h.lens.prez, h.lens.x, h.lens.dx⟩,
        ⟨h.lens'.z, h.lens'.prez, h.lens'.x, h.lens'.dx⟩,
        fun t => ⟨(h.times t).1, by simp [h.ctx.time]⟩, h.nx, h.nz⟩
    · simp [hr.term h.mv, h.early, h.ctx.time]

theorem pendingEvent_rel {ehn : Bool} (h : Fu c c') :
    (pendingEvent m c ehn).Rel (fun x x' => Fu x.1 x'.1 ∧ x.2 = x'.2) (pendingEvent m c' ehn) := by
  unfold pendingEvent
  cases he : m.eventUpdate with
  | none => exact ⟨h, rfl⟩
  | some eu =>
    simp only
    split
    · refine Outcome.Rel.bind (RRel.liftEvent hr he h) ?_
      rintro ⟨c, s, u⟩ ⟨c', s', u'⟩ ⟨h1, h2⟩
      exact ⟨h1, rfl⟩
    · exact ⟨h, rfl⟩

theorem internalEvent_rel {β : Type} {eu : Ctx F → MV F D → MRes F D Unit} (he : m.eventUpdate = some eu)
    {st : Status} {stop : β} {k k' : Comp F D → Status → Res F D β} (h : Fu c c')
    (hk : ∀ c c' st, Fu c c' → RRel Fu (k c st) (k' c' st)) :
    RRel Fu (internalEvent m eu c st stop k) (internalEvent m eu c' st stop k') := by
  unfold internalEvent
  refine .call Tight.full_ok (.liftEvent hr he h) fun c c' st _ h => ?_
  by_cases hz : m.maxNZ > 0
  · simp only [if_pos hz]
    obtain ⟨en, ep⟩ := h.nz trivial hz
    have hv : VecRel E c.nz c.prez c'.prez (m.getEventIndicators c.ctx c.mv (some c.prez) c.nz)
        (m.getEventIndicators c'.ctx c'.mv (some c'.prez) c'.nz) := by
      rw [en]
      exact hr.indicatorsV c.prez c'.prez c.nz h.ctx h.mv (by rw [h.lens.prez, h.lens'.prez])
    unfold call Comp.lift
    rw [Outcome.bind_assoc, Outcome.bind_assoc]
    refine Outcome.Rel.bind hv ?_
    rintro ⟨mv, s, p⟩ ⟨mv', s', p'⟩ ⟨h1, h2, h3⟩
    simp only at h1 h2 h3
    subst h2
    simp only [Outcome.ret_bind]
    have h4 := h.upd h1
    split
    · exact RRel.ret h4
    · exact RRel.ret (h4.term Tight.full_ok)
    · exact RRel.ret (h4.fatal Tight.full_ok)
    · obtain ⟨q, q', rfl, rfl, hl, hl', ht⟩ := h3
      rw [h.lens.prez] at hl hl'
      exact hk _ _ _ ⟨h4.ctx, h4.mv, h4.start, h4.steps, h4.early, h4.evm,
        ⟨h4.lens.z, hl, h4.lens.x, h4.lens.dx⟩, ⟨h4.lens'.z, hl', h4.lens'.x, h4.lens'.dx⟩,
        h4.times, h4.nx, fun _ _ => ⟨en, (ht (.inr ep.symm)).symm⟩⟩
  · simp only [if_neg hz]; exact hk _ _ _ h

theorem doStepLoop_rel {next : F} {out : StepOut F} : ∀ {fuel : Nat} {c c' : Comp F D} {st : Status}
    {ehn : Bool}, Fu c c' →
    RRel Fu (doStepLoop m next out fuel c st ehn) (doStepLoop m next out fuel c' st ehn) := by
  intro fuel
  induction fuel with
  | zero => intros; trivial
  | succ n ih =>
    intro c c' st ehn h
    unfold doStepLoop
    simp only [h.ctx.time, h.early]
    refine .iteB rfl (fun _ => doStepEnd_rel hr h) fun _ => ?_
    refine Outcome.Rel.bind (pendingEvent_rel hr h) ?_
    rintro ⟨d, e⟩ ⟨d', e'⟩ ⟨hd, he⟩
    simp only at hd he
    subst he
    refine RRel.call Tight.full_ok (doFixedStep_rel hr hd) fun c c' st ev h => ?_
    have rest : ∀ {c c' : Comp F D} {st : Status} {ehn r : Bool}, Fu c c' →
        RRel Fu (if c.mv.terminateSimulation then doStepEnd next out c st ehn r
          else doStepLoop m next out n c st ehn)
        (if c'.mv.terminateSimulation then doStepEnd next out c' st ehn r
          else doStepLoop m next out n c' st ehn) :=
      fun h => .iteB (hr.term h.mv) (fun _ => doStepEnd_rel hr h) fun _ => ih h
    cases he : m.eventUpdate with
    | none => exact rest h
    | some eu =>
      simp only
      cases ev with
      | none => trivial
      | some ev =>
        simp only
        refine .iteB rfl (fun _ => ?_) fun _ => rest h
        refine .iteB h.evm (fun _ => ?_) fun _ => internalEvent_rel hr he h fun c c' st h => ?_
        · exact .iteB h.early (fun _ => doStepEnd_rel hr h) fun _ => rest h
        · exact .iteB h.early (fun _ => doStepEnd_rel hr h) fun _ => rest h

theorem doStep_rel (ht : TightOK τ) {fuel : Nat} {ccp step : F} {out : StepOut F} (h : SRel m E τ c c') :
    RRel (SRel m E τ) (doStep m fuel c ccp step out) (doStep m fuel c' ccp step out) := by
  unfold doStep
  refine .begin3 hr ht.toOK h fun ha => ?_
  have hs : c.ctx.state = .stepMode := by
    revert ha; cases e : c.ctx.state <;> simp [allowed, e] <;> decide
  have hf : Fu c c' := h.toFull (hs ▸ ht.stepT') (hs ▸ ht.stepC')
  obtain ⟨e1, e2⟩ := hf.times trivial
  refine RRel.mono ?_ fun _ _ h => SRel.ofFull h
  simp only [e1, e2]
  refine .iteB rfl (fun _ => .fail3 hr Tight.full_ok hf) fun _ => ?_
  refine .iteB rfl (fun _ => .fail3 hr Tight.full_ok hf) fun _ => ?_
  refine .iteB rfl (fun _ => .fail3 hr Tight.full_ok hf) fun _ => ?_
  exact .iteB rfl (fun _ => .ub) fun _ => doStepLoop_rel hr hf

end

/-- Related worlds: related instances, and related contents of the FMU-state variables in `A` and
the buffers in `B`. -/
structure WRel (S : Comp F D → Comp F D → Prop) (A B : Nat → Prop) (w w' : World F D) : Prop where
  inst : S w.inst w'.inst
  slots : ∀ i, A i → OptRel S (w.slots i) (w'.slots i)
  bufs : ∀ i, B i → OptRel (BufRel S) (w.bufs i) (w'.bufs i)

section
variable {S : Comp F D → Comp F D → Prop} {A B : Nat → Prop} {w w' : World F D}

/-- Related results of calls. -/
def OutRel (S : Comp F D → Comp F D → Prop) (A B : Nat → Prop)
    (r r' : Outcome (World F D × Status × Out F)) : Prop :=
  r.Rel (fun x x' => WRel S A B x.1 x'.1 ∧ x.2 = x'.2) r'

theorem WRel.run {β : Type} (h : WRel S A B w w') {r r' : Res F D β} {out : β → Out F}
    (hr : RRel S r r') : OutRel S A B (w.run r out) (w'.run r' out) :=
  Outcome.Rel.bind hr fun a b hab => by
    obtain ⟨c, s, x⟩ := a; obtain ⟨c', x'⟩ := b
    obtain ⟨h1, h2⟩ := hab; simp only at h2; subst h2
    exact ⟨⟨h1, h.slots, h.bufs⟩, rfl⟩

/-- Related results whose outputs are related contents of variables. -/
def VRel {α : Type} (S : Comp F D → Comp F D → Prop) (R : α → α → Prop)
    (r r' : Res F D (Option α)) : Prop :=
  r.Rel (fun x x' => S x.1 x'.1 ∧ x.2.1 = x'.2.1 ∧ OptRel R x.2.2 x'.2.2) r'

theorem WRel.runSlot (h : WRel S A B w w') {i : Nat} {r r' : Res F D (Option (Comp F D))}
    (hr : VRel S S r r') : OutRel S A B (w.runSlot i r) (w'.runSlot i r') :=
  Outcome.Rel.bind hr fun a b hab => by
    obtain ⟨c, s, x⟩ := a; obtain ⟨c', s', x'⟩ := b
    obtain ⟨h1, h2, h3⟩ := hab; simp only at h2 h3; subst h2
    refine ⟨⟨h1, fun j hj => ?_, h.bufs⟩, rfl⟩
    simp only
    split
    · exact h3
    · exact h.slots j hj

theorem WRel.runBuf (h : WRel S A B w w') {i : Nat} {r r' : Res F D (Option (Buffer F D))}
    (hr : VRel S (BufRel S) r r') : OutRel S A B (w.runBuf i r) (w'.runBuf i r') :=
  Outcome.Rel.bind hr fun a b hab => by
    obtain ⟨c, s, x⟩ := a; obtain ⟨c', s', x'⟩ := b
    obtain ⟨h1, h2, h3⟩ := hab; simp only at h2 h3; subst h2
    refine ⟨⟨h1, h.slots, fun j hj => ?_⟩, rfl⟩
    simp only
    split
    · exact h3
    · exact h.bufs j hj
end

theorem VRel.begin {α : Type} {R : α → α → Prop} (hr : Respects m E) (hτ : τ.OK) {mask : Nat}
    {name : String} (h : SRel m E τ c c') {stop stop' : Option α} (hs : OptRel R stop stop')
    {k k' : Comp F D → Res F D (Option α)} (hk : VRel (SRel m E τ) R (k c) (k' c')) :
    VRel (SRel m E τ) R (begin mask name c stop k) (begin mask name c' stop' k') := by
  unfold FMI3.begin beginFunction
  have : allowed c'.ctx mask = allowed c.ctx mask := by simp [allowed, h.state]
  rw [this]
  split
  · exact hk
  · exact ⟨(h.log hr _).term hτ, rfl, hs⟩

variable [Arith F] [HasInf F]

/-- `fmi3EnterStepMode` is not called in Initialization Mode unless the configuration matters
there. -/
def StepFromInit (τ : Tight) (w : World F D) (op : Op F) : Prop :=
  op = .enterStepMode → w.inst.ctx.state = .initializationMode → τ.C .stepMode →
    τ.C .initializationMode

set_option maxHeartbeats 1000000 in
theorem step_rel (hr : Respects m E) (ht : TightOK τ) {A B : Nat → Prop} {fuel : Nat}
    {w w' : World F D} (hw : WRel (SRel m E τ) A B w w') (op : Op F) (ha : ∀ i ∈ op.slots, A i)
    (hb : ∀ i ∈ op.bufs, B i) (hst : StepFromInit τ w op) :
    OutRel (SRel m E τ) A B (step m fuel w op) (step m fuel w' op) := by
  have hτ := ht.toOK
  have h := hw.inst
  have hc := h.ctx
  have hm := h.mv
  cases op <;> simp only [step]
  case setDebugLogging =>
    exact hw.run (.begin3 hr hτ h fun _ => .callLast hτ (.setDebugLogging hr hτ h))
  case enterInitializationMode a d b =>
    refine hw.run (.begin3 hr hτ h fun ha => .ret ?_)
    have hs := (allowed_inst _).1 ha
    have h1 := CRel.setState (CRel.setTime h a) .initializationMode
    rw [hs] at h1
    exact ⟨h1.ctx, h1.mv, rfl, h1.steps, h1.early, h1.evm,
      ⟨h.lens.z, h.lens.prez, h.lens.x, h.lens.dx⟩,
      ⟨h.lens'.z, h.lens'.prez, h.lens'.x, h.lens'.dx⟩, fun _ => ⟨rfl, rfl⟩,
      fun t => h1.nx (ht.initC t), fun t => h1.nz (ht.initC t)⟩
  case exitInitializationMode =>
    refine hw.run ?_
    unfold exitInitializationMode
    refine .begin3 hr hτ h fun ha => ?_
    have hs := (allowed_init _).1 ha
    refine .refresh hr hτ h fun d d' st hd hctx => ?_
    have e : stateAfterInit d' = stateAfterInit d := by
      unfold stateAfterInit; rw [hd.ctx.typ, hd.evm]
    simp only [e]
    refine .call hτ (configurate_srel hr _ hd ?_) fun _ _ _ _ h => .ret h
    rw [hctx, hs]
    refine ht.afterInit _ ?_
    unfold stateAfterInit
    split
    · simp
    · split <;> simp
    · simp
  case enterEventMode =>
    refine hw.run (.begin3 hr hτ h fun ha => .ret ?_)
    have := ht.event _ ((allowed_CTstep _).1 ha)
    exact h.to _ this.1 this.2
  case terminate => exact hw.run (.begin3 hr hτ h fun _ => .ret (h.term hτ))
  case reset =>
    exact hw.run (.begin3 hr hτ h fun _ => .callLast hτ (reset_rel hr h (ht.resetT _) (ht.resetC _)))
  case get => exact hw.run (getVars_rel hr hτ h)
  case getClock => exact hw.run (.begin3 hr hτ h fun _ => getClockLoop_rel hr hτ h)
  case set => exact hw.run (setVars_rel hr hτ h)
  case setClock => exact hw.run (.begin3 hr hτ h fun _ => setClockLoop_rel hr hτ h)
  case getFMUState i =>
    exact hw.runSlot (VRel.begin hr hτ h (hw.slots i (ha i (by simp [Op.slots]))) ⟨h, rfl, h⟩)
  case setFMUState i =>
    refine hw.run (.begin3 hr hτ h fun _ => .callLast hτ ?_)
    have hs := hw.slots i (ha i (by simp [Op.slots]))
    revert hs
    cases w.slots i <;> cases w'.slots i <;> intro hs
    · exact .ret (h.log hr _)
    · exact hs.elim
    · exact hs.elim
    · exact .ret (setFMUState_rel hr hc h.lens h.lens' hs)
  case freeFMUState i =>
    exact hw.runSlot (VRel.begin hr hτ h (hw.slots i (ha i (by simp [Op.slots]))) ⟨h, rfl, trivial⟩)
  case serializedFMUStateSize n =>
    refine hw.run (.begin3 hr hτ h fun _ => ?_)
    cases n
    · trivial
    · exact .ret h
  case serializeFMUState i b n =>
    have hs := hw.slots i (ha i (by simp [Op.slots]))
    have hbb := hw.bufs b (hb b (by simp [Op.bufs]))
    refine hw.runBuf (VRel.begin hr hτ h hbb ?_)
    revert hs
    cases w.slots i <;> cases w'.slots i <;> intro hs
    · exact ⟨h.invalidArg hr hτ _, rfl, hbb⟩
    · exact hs.elim
    · exact hs.elim
    · simp only
      split
      · exact ⟨h.invalidArg hr hτ _, rfl, hbb⟩
      · revert hbb
        cases w.bufs b <;> cases w'.bufs b <;> intro hbb
        · trivial
        · exact hbb.elim
        · exact hbb.elim
        · obtain ⟨e1, e2⟩ := hbb
          simp only [Buffer.store, e1]
          split
          · trivial
          · exact ⟨h, rfl, rfl, hs⟩
  case deserializeFMUState b n i =>
    have hs := hw.slots i (ha i (by simp [Op.slots]))
    have hbb := hw.bufs b (hb b (by simp [Op.bufs]))
    refine hw.runSlot (VRel.begin hr hτ h hs ?_)
    split
    · exact ⟨h.invalidArg hr hτ _, rfl, hs⟩
    · revert hbb
      cases w.bufs b <;> cases w'.bufs b <;> intro hbb
      · trivial
      · exact hbb.elim
      · exact hbb.elim
      · next b1 b2 =>
        obtain ⟨e1, e2⟩ := hbb
        simp only [Buffer.load, e1]
        split
        · trivial
        · revert e2
          cases b1.image <;> cases b2.image <;> intro e2
          · trivial
          · exact e2.elim
          · exact e2.elim
          · exact ⟨h, rfl, e2⟩
  case getDirectionalDerivative => exact hw.run (.begin3 hr hτ h fun _ => .derivOuter hr hτ h)
  case getAdjointDerivative => exact hw.run (.begin3 hr hτ h fun _ => .derivOuter hr hτ h)
  case enterConfigurationMode =>
    refine hw.run (.begin3 hr hτ h fun ha => ?_)
    have hs := (allowed_enterConfig _).1 ha
    rw [h.state]
    refine .ret (h.to _ ?_ ?_)
    · split
      · next e => rw [e]; exact ht.config.1
      · next e => simp [e] at hs; exact (ht.reconfig _ hs).1
    · split
      · next e => rw [e]; exact ht.config.2
      · next e => simp [e] at hs; exact (ht.reconfig _ hs).2
  case exitConfigurationMode =>
    refine hw.run ?_
    unfold exitConfigurationMode
    refine .begin3 hr hτ h fun ha => ?_
    have hs := (allowed_exitConfig _).1 ha
    have e : stateAfterConfig w'.inst = stateAfterConfig w.inst := by
      unfold stateAfterConfig; rw [hc.typ, h.state]
    have hT : τ.T (stateAfterConfig w.inst) → τ.T w.inst.ctx.state := by
      unfold stateAfterConfig
      split
      · next e => rw [e]; exact ht.exitConfig
      · next e =>
        simp [e] at hs
        rw [hs]
        refine ht.exitReconfig _ ?_
        split <;> simp
    simp only [e]
    refine .iteB rfl (fun _ => .callLast hτ (configurate_srel hr _ h hT)) fun hn => .ret ?_
    have h1 := CRel.setState h (stateAfterConfig w.inst)
    simp only [Bool.or_eq_false_iff, decide_eq_false_iff_not] at hn
    exact ⟨h1.ctx, h1.mv, h1.start, h1.steps, h1.early, h1.evm, h1.lens, h1.lens',
      fun t => h1.times (hT t), fun _ hx => absurd hx hn.1, fun _ hx => absurd hx hn.2⟩
  case getIntervalDecimal => exact hw.run (.begin3 hr hτ h fun _ => getIntervalLoop_rel hr hτ h)
  case updateDiscreteStates o =>
    refine hw.run (.begin3 hr hτ h fun ha => ?_)
    have fill : ∀ {a b : MV F D}, b.eventInfo = a.eventInfo → fillEventOut a o = fillEventOut b o := by
      intro a b e
      simp only [MV.eventInfo, EventInfo.mk.injEq] at e
      simp [fillEventOut, e]
    cases he : m.eventUpdate with
    | none => exact .ret' h rfl (fill (hr.info hm he))
    | some eu => exact .eventUpdate hr hτ he h fun c c' st h e => .ret' h rfl (fill e)
  case enterContinuousTimeMode =>
    refine hw.run (.begin3 hr hτ h fun ha => .ret ?_)
    have hs := (allowed_event _).1 ha
    exact h.to _ (fun t => hs ▸ ht.ct.1 t) fun t => hs ▸ ht.ct.2 t
  case completedIntegratorStep =>
    exact hw.run (.begin3 hr hτ h fun _ => .nonNull hr hτ h (.nonNull hr hτ h (.ret h)))
  case setTime t => exact hw.run (.begin3 hr hτ h fun _ => .ret (CRel.setTime h t))
  case setContinuousStates =>
    exact hw.run (.begin3 hr hτ h fun _ => .callLast hτ (.lift (hr.setStates _ _ hc hm) h))
  case getDerivatives =>
    exact hw.run (.begin3 hr hτ h fun _ => .callLast hτ (.lift (hr.deriv _ _ hc hm) h))
  case getEventIndicators =>
    exact hw.run (.begin3 hr hτ h fun _ => .callLast hτ (.lift (hr.indicators _ _ hc hm) h))
  case getContinuousStates =>
    exact hw.run (.begin3 hr hτ h fun _ => .callLast hτ (.lift (hr.getStates _ _ hc hm) h))
  case getNominals =>
    exact hw.run (.begin3 hr hτ h fun _ => .callLast hτ (.lift (hr.nominals _ _ hc hm) h))
  case getNumberOfEventIndicators n =>
    refine hw.run (.begin3 hr hτ h fun _ => ?_)
    cases n
    · trivial
    · exact .ret' h rfl (by rw [hr.numZ hm])
  case getNumberOfContinuousStates n =>
    refine hw.run (.begin3 hr hτ h fun _ => ?_)
    cases n
    · trivial
    · exact .ret' h rfl (by rw [hr.numX hm])
  case enterStepMode =>
    refine hw.run (.begin3 hr hτ h fun ha => .ret ?_)
    rcases (allowed_initEvent _).1 ha with e | e
    · exact h.to _ (fun t => e ▸ ht.afterInit _ (by simp) t) fun t => e ▸ hst rfl e t
    · exact h.to _ (fun t => e ▸ ht.step.1 t) fun t => e ▸ ht.step.2 t
  case getOutputDerivatives =>
    refine hw.run (.begin3 hr hτ h fun _ => ?_)
    cases he : m.getOutputDerivative with
    | none => exact .ret (h.log hr _)
    | some f => exact .outputDerivLoop hr hτ he h
  case doStep => exact hw.run (doStep_rel hr ht h)
  case activateModelPartition =>
    exact hw.run (.begin3 hr hτ h fun _ => .callLast hτ (.lift (hr.partition _ _ hc hm) h))
  case notImplemented => exact hw.run (.ret (h.log hr _))

/-- `P` holds for every call of a history in the world in which it is made. -/
def Along (m : Model F D) (fuel : Nat) (P : World F D → Op F → Prop) (w : World F D) :
    List (Op F) → Prop
  | [] => True
  | op :: ops => P w op ∧ ∀ w' s o, step m fuel w op = .ret (w', s, o) → Along m fuel P w' ops

/-- Related worlds show the same under the same calls. -/
theorem run_rel' (hr : Respects m E) (ht : TightOK τ) {A B : Nat → Prop} {fuel : Nat} :
    ∀ (ops : List (Op F)) {w w' : World F D}, WRel (SRel m E τ) A B w w' →
    (∀ op ∈ ops, (∀ i ∈ op.slots, A i) ∧ ∀ i ∈ op.bufs, B i) →
    Along m fuel (StepFromInit τ) w ops →
    (run m fuel w ops).Rel (fun x x' => WRel (SRel m E τ) A B x.1 x'.1 ∧ x.2 = x'.2)
      (run m fuel w' ops) := by
  intro ops
  induction ops with
  | nil => intro w w' h _ _; exact ⟨h, rfl⟩
  | cons op ops ih =>
    intro w w' h ho hs
    unfold run
    have h0 := ho op (by simp)
    have h1 := step_rel hr ht (fuel := fuel) h op h0.1 h0.2 hs.1
    cases e : step m fuel w op with
    | ret a =>
      rw [e] at h1
      cases e' : step m fuel w' op with
      | ret b =>
        rw [e'] at h1
        obtain ⟨w1, s, o⟩ := a; obtain ⟨w1', so'⟩ := b
        obtain ⟨h1, h2⟩ := h1
        simp only at h1 h2
        subst h2
        simp only [Outcome.ret_bind]
        refine Outcome.Rel.bind (ih h1 (fun op hop => ho op (by simp [hop])) (hs.2 _ _ _ e)) ?_
        rintro ⟨w2, l⟩ ⟨w2', l'⟩ ⟨h1, h2⟩
        simp only at h1 h2
        subst h2
        exact ⟨h1, rfl⟩
      | ub => rw [e'] at h1; exact h1.elim
      | hang => rw [e'] at h1; exact h1.elim
    | ub =>
      rw [e] at h1
      cases e' : step m fuel w' op with
      | ret b => rw [e'] at h1; exact h1.elim
      | ub => trivial
      | hang => rw [e'] at h1; exact h1.elim
    | hang =>
      rw [e] at h1
      cases e' : step m fuel w' op with
      | ret b => rw [e'] at h1; exact h1.elim
      | ub => rw [e'] at h1; exact h1.elim
      | hang => trivial

theorem Along.all {m : Model F D} {fuel : Nat} {P : World F D → Op F → Prop} (h : ∀ w op, P w op) :
    ∀ {ops w}, Along m fuel P w ops := by
  intro ops
  induction ops with
  | nil => intro w; trivial
  | cons op ops ih => intro w; exact ⟨h w op, fun _ _ _ _ => ih⟩

/-- Related worlds show the same under the same calls. -/
theorem run_rel (hr : Respects m E) {A B : Nat → Prop} {fuel : Nat}
    (ops : List (Op F)) {w w' : World F D} (h : WRel (SRel m E Tight.full) A B w w')
    (ho : ∀ op ∈ ops, (∀ i ∈ op.slots, A i) ∧ ∀ i ∈ op.bufs, B i) :
    (run m fuel w ops).Rel (fun x x' => WRel (SRel m E Tight.full) A B x.1 x'.1 ∧ x.2 = x'.2)
      (run m fuel w' ops) :=
  run_rel' hr .full ops h ho (.all fun _ _ _ _ _ => trivial)

omit [HasInf F] in
theorem New.lens {t : IType} {c : Comp F D} (h : New m t c) : c.Lens m := by
  cases h with
  | me h =>
    unfold instantiateModelExchange at h
    split at h
    · simp at h
    · exact createModelInstance_lens h
  | cs h =>
    unfold instantiateCoSimulation at h
    split at h
    · simp at h
    · simp only [Prod.mk.injEq, Option.map_eq_some_iff] at h
      obtain ⟨⟨d, e, rfl⟩, -⟩ := h
      have := createModelInstance_lens (Prod.ext e rfl)
      exact ⟨this.z, this.prez, this.x, this.dx⟩
  | se h =>
    unfold instantiateScheduledExecution at h
    split at h
    · simp at h
    · simp only [Prod.mk.injEq, Option.map_eq_some_iff] at h
      obtain ⟨⟨d, e, rfl⟩, -⟩ := h
      have := createModelInstance_lens (Prod.ext e rfl)
      exact ⟨this.z, this.prez, this.x, this.dx⟩

/-- Reachable worlds are related to themselves. -/
theorem Reachable.self {t : IType} {w : World F D} (hr : Respects m E) (hE : ∀ mv, E mv mv)
    (h : Reachable m t w) : WRel (SRel m E Tight.full) (fun _ => True) (fun _ => True) w w := by
  obtain ⟨c, w₀, fuel, ops, outs, h1, h2, h3⟩ := h
  have h0 : WRel (SRel m E Tight.full) (fun _ => True) (fun _ => True) w₀ w₀ := by
    refine ⟨?_, ?_, ?_⟩
    · rw [h2.inst]; exact SRel.self hE h1.lens
    · intro i _; rw [h2.slots]; trivial
    · intro i _
      refine .self fun b hb => .self fun s hs => ?_
      rw [h2.bufs i b hb] at hs; cases hs
  have := run_rel hr (fuel := fuel) ops h0 fun _ _ => ⟨fun _ _ => trivial, fun _ _ => trivial⟩
  rw [h3] at this
  exact this.1

/-- A call changes only the variables it writes. -/
theorem step_frame {fuel : Nat} {w w' : World F D} {op : Op F} {s o}
    (h : step m fuel w op = .ret (w', s, o)) :
    (∀ i, i ∉ op.slotsWritten → w'.slots i = w.slots i) ∧
    ∀ i, i ∉ op.bufsWritten → w'.bufs i = w.bufs i := by
  cases op <;> simp only [step, World.run, World.runSlot, World.runBuf] at h <;>
    (obtain ⟨x, -, h⟩ := Outcome.bind_eq_ret.1 h; cases h; constructor <;> intro j hj) <;>
    first
    | rfl
    | (simp only [Op.slotsWritten, List.mem_singleton] at hj; simp [hj])
    | (simp only [Op.bufsWritten, List.mem_singleton] at hj; simp [hj])

theorem run_frame {fuel : Nat} {ops : List (Op F)} : ∀ {w w' : World F D} {l},
    run m fuel w ops = .ret (w', l) →
    (∀ i, (∀ op ∈ ops, i ∉ op.slotsWritten) → w'.slots i = w.slots i) ∧
    ∀ i, (∀ op ∈ ops, i ∉ op.bufsWritten) → w'.bufs i = w.bufs i := by
  induction ops with
  | nil => intro w w' l h; cases h; exact ⟨fun _ _ => rfl, fun _ _ => rfl⟩
  | cons op ops ih =>
    intro w w' l h
    simp only [run] at h
    obtain ⟨⟨w1, s, o⟩, e1, h⟩ := Outcome.bind_eq_ret.1 h
    obtain ⟨⟨w2, l2⟩, e2, h⟩ := Outcome.bind_eq_ret.1 h
    cases h
    have f1 := step_frame e1
    have f2 := ih e2
    exact ⟨fun i hi => (f2.1 i fun op hop => hi op (by simp [hop])).trans (f1.1 i (hi op (by simp))),
      fun i hi => (f2.2 i fun op hop => hi op (by simp [hop])).trans (f1.2 i (hi op (by simp)))⟩

open FMI2 (sameConst) in
theorem HistInv.const (m : Model F D) (x : Ctx F) : HistInv m fun c => sameConst x c.ctx where
  lift h _ _ := h
  log _ h := h
  dirty _ h := h
  adv h _ := h
  iu h _ := h
  ncp _ h := h
  nx h := h
  nz h := h
  x _ h := h
  dx _ h := h
  z _ h := h
  prez _ h := h
  flags _ _ h := h
  term h := h
  enterInit _ _ h _ := h
  exitInit h _ := h
  enterConfig h _ := h
  exitConfig h _ := h
  reset h := Outcome.all_ret.2 h
  restore h _ := h
  enterEvent h _ := h
  enterCT h _ := h
  enterStep h _ := h
  setTime _ h _ := h

end FMI3
end Verif
