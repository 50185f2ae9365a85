import Verif.Lemmas.NoUb

/-! # Calls without undefined behaviour: the API functions -/

set_option linter.unusedSectionVars false

namespace Verif
variable {F D : Type} [Arith F] [HasInf F]
variable {m : Model F D} {E : VType → Prop} {K : Ctx F → Prop} {J Q : MV F D → Prop}
variable (S : m.Safe E K J Q)

theorem store_noUb {b : Option (Buffer F D)} {s : Comp F D} {n : Nat} (hn : n = m.sizeOf) (h : Buffer.Has b n) :
    (Buffer.store m b s).NoUb := by
  obtain ⟨x, rfl, h⟩ := h
  simp only [Buffer.store, show ¬ x.capacity < m.sizeOf by omega, if_false]
  exact .ret

theorem load_noUb {b : Option (Buffer F D)} {n : Nat} (hn : n = m.sizeOf) (h : Buffer.Has b n) (hf : Buffer.Filled b) :
    (Buffer.load m b).NoUb := by
  obtain ⟨x, rfl, h⟩ := h
  obtain ⟨y, s, e, hs⟩ := hf
  cases e
  simp only [Buffer.load, show ¬ x.capacity < m.sizeOf by omega, if_false, hs]
  exact .ret

include S
theorem Comp.Sound.lift_noUb {β : Type} {c : Comp F D} {r : MRes F D β} (h : r.NoUb) : (c.lift r).NoUb :=
  h.bind fun _ => .ret

namespace FMI3

omit S [Arith F] [HasInf F] in
theorem run_noUb {β : Type} {w : World F D} {r : Res F D β} {out : β → Out F} (h : r.NoUb) : (w.run r out).NoUb :=
  h.bind fun _ => .ret
omit S [Arith F] [HasInf F] in
theorem runSlot_noUb {w : World F D} {i : Nat} {r : Res F D (Option (Comp F D))} (h : r.NoUb) : (w.runSlot i r).NoUb :=
  h.bind fun _ => .ret
omit S [Arith F] [HasInf F] in
theorem runBuf_noUb {w : World F D} {i : Nat} {r : Res F D (Option (Buffer F D))} (h : r.NoUb) : (w.runBuf i r).NoUb :=
  h.bind fun _ => .ret

theorem getVars_noUb {t : VType} {c : Comp F D} {vr : Ptr Nat} {n nv : Nat} {v : Ptr (t.Val F)}
    (h : c.Sound m K J) (hvr : vr.Has n) (hv : v.Has nv) : (getVars m t c vr n v nv).NoUb := by
  unfold getVars begin
  refine begin_noUb ?_
  split
  · exact .ret
  · refine nonNull_noUb ?_
    have key : (refresh m .OK c v fun c st =>
        getLoop m t vr nv n 0 c st v 0 >>- fun (c, st, (values, index)) =>
        if st = .Discard ∨ st = .Error ∨ st = .Fatal then .ret (c, st, values)
        else if t ≠ .binary ∧ index ≠ nv then fail c "Expected nValues = %zu but was %zu." values
        else .ret (c, st, values)).NoUb := by
      refine h.refresh S fun c h => ?_
      refine (getLoop_noUb S hvr n h (by omega) hv).bind ?_
      rintro ⟨c, st, v, i⟩
      simp only
      repeat' split
      all_goals exact .ret
    simp only
    split
    · exact nonNull_noUb key
    · exact key

theorem setVars_noUb {t : VType} {c : Comp F D} {vr : Ptr Nat} {n nv : Nat} {v : Ptr (t.Val F)}
    (h : c.Sound m K J) (hvr : vr.Has n) (hv : v.Has nv) (hg : v.Good) (hn : E t → n ≤ nv) :
    (setVars m t c vr n v nv).NoUb := by
  unfold setVars begin
  refine begin_noUb ?_
  split
  · exact .ret
  · refine nonNull_noUb ?_
    refine (setLoop_noUb S hvr hv hg hn n h (by omega) fun _ => rfl).bind ?_
    rintro ⟨c, st, i⟩
    simp only
    repeat' split
    all_goals exact .ret

theorem getClockLoop_noUb {vr : Ptr Nat} {nn : Nat} (hvr : vr.Has nn) (n : Nat) :
    ∀ {i} {c : Comp F D} {v : Ptr Bool}, c.Sound m K J → i + n = nn → v.Has nn →
      (getClockLoop m vr n i c .OK v).NoUb := by
  induction n with
  | zero => intro i c v _ _ _; exact .ret
  | succ n ih =>
    intro i c v h hi hv
    refine (hvr.read (i := i) (by omega)).nbind fun r _ => ?_
    refine (hv.read (i := i) (by omega)).nbind fun old _ => ?_
    refine (h.call S S.getClock fun _ _ _ e => .getClock e).nbind ?_
    rintro ⟨c, s, b⟩ hx
    refine (hv.write (i := i) (by omega)).nbind fun v hv => ?_
    refine call_noUb (I := fun c _ => c.Sound m K J) (.ret ?_) fun c _ h => ih h (by omega) hv
    exact hx

theorem setClockLoop_noUb {vr : Ptr Nat} {v : Ptr Bool} {nn : Nat} (hvr : vr.Has nn) (hv : v.Has nn) (n : Nat) :
    ∀ {i} {c : Comp F D}, c.Sound m K J → i + n = nn → (setClockLoop m vr v n i c .OK).NoUb := by
  induction n with
  | zero => intro i c _ _; exact .ret
  | succ n ih =>
    intro i c h hi
    refine (hv.read (i := i) (by omega)).nbind fun b _ => ?_
    cases b
    · exact ih h (by omega)
    · refine (hvr.read (i := i) (by omega)).nbind fun r _ => ?_
      exact call_noUb (h.call S S.activate fun _ _ _ e => .activate e) fun c _ h => ih h (by omega)

theorem getIntervalLoop_noUb {vr : Ptr Nat} {nn : Nat} (hvr : vr.Has nn) (n : Nat) :
    ∀ {i} {c : Comp F D} {p : Ptr F} {q : Ptr Int}, c.Sound m K J → i + n = nn → p.Has nn → q.Has nn →
      (getIntervalLoop m vr n i c .OK (p, q)).NoUb := by
  induction n with
  | zero => intro i c p q _ _ _ _; exact .ret
  | succ n ih =>
    intro i c p q h hi hp hq
    refine (hvr.read (i := i) (by omega)).nbind fun r _ => ?_
    refine (hp.read (i := i) (by omega)).nbind fun oldI _ => ?_
    refine (hq.read (i := i) (by omega)).nbind fun oldQ _ => ?_
    refine (h.call S S.getInterval fun _ _ _ e => .getInterval e).nbind ?_
    rintro ⟨c, s, b⟩ hx
    refine (hp.write (i := i) (by omega)).nbind fun p hp => ?_
    refine (hq.write (i := i) (by omega)).nbind fun q hq => ?_
    refine call_noUb (I := fun c _ => c.Sound m K J) (.ret ?_) fun c _ h => ih h (by omega) hp hq
    exact hx

omit S [HasInf F] in
theorem doStepEnd_noUb {next : F} {out : StepOut F} {c : Comp F D} {st : Status} {a b : Bool}
    (h : out.lastSuccessfulTime ≠ none) : (doStepEnd next out c st a b).NoUb := by
  unfold doStepEnd
  split
  · contradiction
  · exact .ret

theorem doStepLoop_noUb {next : F} {out : StepOut F} (ho : out.lastSuccessfulTime ≠ none) (fuel : Nat) :
    ∀ {c : Comp F D} {ehn : Bool}, c.Sound m K J → Q c.mv → (ehn = true → c.eventModeUsed = true) →
      (doStepLoop m next out fuel c .OK ehn).NoUb := by
  induction fuel with
  | zero => intro c ehn _ _ _; exact .hang
  | succ fuel ih =>
    intro c ehn h hq he
    unfold doStepLoop
    simp only
    split
    · exact doStepEnd_noUb ho
    · have hp : (pendingEvent m c ehn).Safe fun x => x.1.Sound m K J ∧ (Q x.1.mv ∨ x.1.eventModeUsed = true) ∧
          (x.2 = true → x.1.eventModeUsed = true) := by
        unfold pendingEvent
        split
        · exact .ret ⟨h, .inl hq, he⟩
        · next eu heu =>
          split
          · next hh =>
            refine (h.run S (S.event heu h.ctx h.mv hq) fun _ _ _ e => .event heu e).bind ?_
            rintro ⟨c', s, b⟩ ⟨h1, -, -, mv', h4, -⟩
            simp only at h1 h4
            subst h4
            exact .ret ⟨h1, .inr (he hh), nofun⟩
          · exact .ret ⟨h, .inl hq, he⟩
      refine hp.nbind ?_
      rintro ⟨c, ehn⟩ ⟨h, hq, he⟩
      simp only at h hq he ⊢
      refine call_noUb (doFixedStep_safe S h) ?_
      rintro c1 ev ⟨h1, a1, hev⟩
      have hq1 : Q c1.mv ∨ c1.eventModeUsed = true := hq.imp a1.1 (a1.2.trans ·)
      have rest : ∀ (c : Comp F D) (ehn b : Bool), c.Sound m K J → (ehn = true → c.eventModeUsed = true) →
          (if c.mv.terminateSimulation = true then doStepEnd next out c .OK ehn b
            else doStepLoop m next out fuel c .OK ehn).NoUb := by
        intro c ehn b h he
        split
        · exact doStepEnd_noUb ho
        · next ht => exact ih h (S.room h.mv (by simpa using ht)) he
      have early : ∀ (c : Comp F D) (ehn b : Bool), c.Sound m K J → (ehn = true → c.eventModeUsed = true) →
          (if c.earlyReturnAllowed = true then doStepEnd next out c .OK ehn b
            else if c.mv.terminateSimulation = true then doStepEnd next out c .OK ehn b
            else doStepLoop m next out fuel c .OK ehn).NoUb := by
        intro c ehn b h he
        split
        · exact doStepEnd_noUb ho
        · exact rest _ _ _ h he
      have he1 : ehn = true → c1.eventModeUsed = true := fun e => a1.2.trans (he e)
      split
      · exact rest _ _ _ h1 he1
      · next eu heu =>
        split
        · contradiction
        · split
          · split
            · next hm => exact early _ _ _ h1 fun _ => hm
            · next hm =>
              have hq1 : Q c1.mv := hq1.resolve_right hm
              unfold internalEvent
              refine call_noUb (h1.event S heu hq1) ?_
              rintro c2 _ ⟨h2, q2, e2⟩
              split
              · refine call_noUb (h2.solve S (R := Ptr.SameLen (some c2.prez)) (S.getZ h2.ctx h2.mv (has_some (h2.lens.prez ▸ h2.nz)))
                  (fun _ _ _ e => .indicators e) (by decide) (by decide)) ?_
                rintro _ p ⟨h3, hp, -, mv3, rfl⟩
                refine early _ _ _ ⟨h3.ctx, h3.mv, ⟨h3.lens.z, (SameLen.getD hp _).trans h2.lens.prez, h3.lens.x, h3.lens.dx⟩, h3.nx, h3.nz⟩ ?_
                exact fun e => e2.trans (he1 e)
              · exact early _ _ _ h2 fun e => e2.trans (he1 e)
          · exact rest _ _ _ h1 he1

/-- A well-formed call does not execute undefined behaviour. -/
theorem step_noUb {fuel : Nat} {w : World F D} {op : Op F} (h : w.inst.Sound m K J) (wf : WellFormed w op)
    (hset : ∀ {t vr n v nv}, op = .set t vr n v nv → E t → n ≤ nv)
    (hev : op.fn = .updateDiscreteStates ∨ op.fn = .doStep → Q w.inst.mv)
    (hpart : ∀ {k t}, op = .activateModelPartition k t → w.inst.ctx.state = .clockActivationMode →
      (m.activateModelPartition w.inst.ctx w.inst.mv k t).NoUb) :
    (step m fuel w op).NoUb := by
  cases op with
  | setDebugLogging on n cats =>
    simp only [step, FMI3.setDebugLogging, FMI3.begin]
    exact run_noUb (begin_noUb (callLast_noUb (setDebugLogging_noUb wf)))
  | enterInitializationMode a d b =>
    simp only [step, FMI3.enterInitializationMode, FMI3.begin]
    exact run_noUb (begin_noUb .ret)
  | exitInitializationMode =>
    simp only [step, FMI3.exitInitializationMode, FMI3.begin]
    refine run_noUb (begin_noUb (h.refresh S fun c h => ?_))
    exact callLast_noUb (configurate_noUb S (h.setState S _))
  | enterEventMode =>
    simp only [step, FMI3.enterEventMode, FMI3.begin]
    exact run_noUb (begin_noUb .ret)
  | terminate =>
    simp only [step, FMI3.terminate, FMI3.begin]
    exact run_noUb (begin_noUb .ret)
  | reset =>
    simp only [step, FMI3.reset, FMI3.begin]
    exact run_noUb (begin_noUb (callLast_noUb .ret))
  | get t vr n v nv =>
    simp only [step]
    exact run_noUb (getVars_noUb S h wf.1 wf.2)
  | getClock vr n v =>
    simp only [step, FMI3.getClock, FMI3.begin]
    exact run_noUb (begin_noUb (getClockLoop_noUb S wf.1 n h (by omega) wf.2))
  | set t vr n v nv =>
    simp only [step]
    exact run_noUb (setVars_noUb S h wf.1 wf.2.1 wf.2.2 (hset rfl))
  | setClock vr n v =>
    simp only [step, FMI3.setClock, FMI3.begin]
    exact run_noUb (begin_noUb (setClockLoop_noUb S wf.1 wf.2 n h (by omega)))
  | getFMUState i =>
    simp only [step, FMI3.getFMUState, FMI3.begin]
    exact runSlot_noUb (begin_noUb .ret)
  | setFMUState i =>
    simp only [step, FMI3.setFMUState, FMI3.begin]
    refine run_noUb (begin_noUb (callLast_noUb ?_))
    split <;> exact .ret
  | freeFMUState i =>
    simp only [step, FMI3.freeFMUState, FMI3.begin]
    exact runSlot_noUb (begin_noUb .ret)
  | serializedFMUStateSize n =>
    simp only [step, FMI3.serializedFMUStateSize, FMI3.begin]
    refine run_noUb (begin_noUb ?_)
    split
    · exact absurd rfl wf
    · exact .ret
  | serializeFMUState i b n =>
    simp only [step, FMI3.serializeFMUState, FMI3.begin]
    refine runBuf_noUb (begin_noUb ?_)
    split
    · exact .ret
    · split
      · exact .ret
      · next hn => exact (store_noUb (by simpa using hn) wf).bind fun _ => .ret
  | deserializeFMUState b n i =>
    simp only [step, FMI3.deserializeFMUState, FMI3.begin]
    refine runSlot_noUb (begin_noUb ?_)
    split
    · exact .ret
    · next hn => exact (load_noUb (by simpa using hn) wf.1 wf.2).bind fun _ => .ret
  | getDirectionalDerivative u nu k nk s v =>
    simp only [step, FMI3.getDirectionalDerivative, FMI3.begin]
    refine run_noUb (begin_noUb (derivOuter_noUb S ?_ wf.2.2.1 nu h (by omega) wf.2.2.2))
    exact fun i j hi hj => (wf.1.read hi).nbind fun _ _ => (wf.2.1.read hj).nbind fun _ _ => .ret
  | getAdjointDerivative u nu k nk s v =>
    simp only [step, FMI3.getAdjointDerivative, FMI3.begin]
    refine run_noUb (begin_noUb (derivOuter_noUb S ?_ wf.2.2.1 nk h (by omega) wf.2.2.2))
    exact fun i j hi hj => (wf.1.read hj).nbind fun _ _ => (wf.2.1.read hi).nbind fun _ _ => .ret
  | enterConfigurationMode =>
    simp only [step, FMI3.enterConfigurationMode, FMI3.begin]
    exact run_noUb (begin_noUb .ret)
  | exitConfigurationMode =>
    simp only [step, FMI3.exitConfigurationMode, FMI3.begin]
    refine run_noUb (begin_noUb ?_)
    split
    · exact callLast_noUb (configurate_noUb S (h.setState S _))
    · exact .ret
  | getIntervalDecimal vr n i q =>
    simp only [step, FMI3.getIntervalDecimal, FMI3.begin]
    exact run_noUb (begin_noUb (getIntervalLoop_noUb S wf.1 n h (by omega) wf.2.1 wf.2.2))
  | updateDiscreteStates o =>
    simp only [step, FMI3.updateDiscreteStates, FMI3.begin]
    refine run_noUb (begin_noUb ?_)
    split
    · exact .ret
    · next eu heu => exact call_noUb (h.event S heu (hev (.inl rfl))) fun _ _ _ => .ret
  | enterContinuousTimeMode =>
    simp only [step, FMI3.enterContinuousTimeMode, FMI3.begin]
    exact run_noUb (begin_noUb .ret)
  | completedIntegratorStep a b =>
    simp only [step, FMI3.completedIntegratorStep, FMI3.begin]
    exact run_noUb (begin_noUb (nonNull_noUb (nonNull_noUb .ret)))
  | setTime t =>
    simp only [step, FMI3.setTime, FMI3.begin]
    exact run_noUb (begin_noUb .ret)
  | setContinuousStates x n =>
    simp only [step, FMI3.setContinuousStates, FMI3.begin]
    exact run_noUb (begin_noUb (callLast_noUb ((S.setX h.ctx h.mv wf).bind fun _ => .ret)))
  | getDerivatives x n =>
    simp only [step, FMI3.getDerivatives, FMI3.begin]
    exact run_noUb (begin_noUb (callLast_noUb ((S.getDX h.ctx h.mv wf).noUb.bind fun _ => .ret)))
  | getEventIndicators x n =>
    simp only [step, FMI3.getEventIndicators, FMI3.begin]
    exact run_noUb (begin_noUb (callLast_noUb ((S.getZ h.ctx h.mv wf).noUb.bind fun _ => .ret)))
  | getContinuousStates x n =>
    simp only [step, FMI3.getContinuousStates, FMI3.begin]
    exact run_noUb (begin_noUb (callLast_noUb ((S.getX h.ctx h.mv wf).noUb.bind fun _ => .ret)))
  | getNominals x n =>
    simp only [step, FMI3.getNominals, FMI3.begin]
    exact run_noUb (begin_noUb (callLast_noUb ((S.nominals h.ctx h.mv wf).bind fun _ => .ret)))
  | getNumberOfEventIndicators n =>
    simp only [step, FMI3.getNumberOfEventIndicators, FMI3.begin]
    refine run_noUb (begin_noUb ?_)
    split
    · exact absurd rfl wf
    · exact .ret
  | getNumberOfContinuousStates n =>
    simp only [step, FMI3.getNumberOfContinuousStates, FMI3.begin]
    refine run_noUb (begin_noUb ?_)
    split
    · exact absurd rfl wf
    · exact .ret
  | enterStepMode =>
    simp only [step, FMI3.enterStepMode, FMI3.begin]
    exact run_noUb (begin_noUb .ret)
  | getOutputDerivatives vr n o v =>
    simp only [step, FMI3.getOutputDerivatives, FMI3.begin]
    refine run_noUb (begin_noUb ?_)
    split
    · next f hf => exact outputDerivLoop_noUb S hf wf.1 wf.2.1 n h (by omega) wf.2.2
    · exact .ret
  | doStep ccp hh o =>
    simp only [step, FMI3.doStep, FMI3.begin]
    refine run_noUb (begin_noUb ?_)
    obtain ⟨w1, w2, w3, w4⟩ := wf
    repeat' split
    all_goals first | exact .ret | skip
    · next hx =>
      exfalso
      obtain ⟨a, b, c, d⟩ := o
      cases a <;> cases b <;> cases c <;> simp_all
    · exact doStepLoop_noUb S w4 fuel h (hev (.inr rfl)) nofun
  | activateModelPartition k t =>
    simp only [step, FMI3.activateModelPartition, FMI3.begin]
    refine run_noUb ?_
    unfold beginFunction
    split
    · next hal =>
      refine callLast_noUb ((hpart rfl ?_).bind fun _ => .ret)
      revert hal
      unfold allowed
      cases w.inst.ctx.state <;> simp <;> decide
    · exact .ret
  | notImplemented f =>
    simp only [step, FMI3.notImplemented]
    exact run_noUb .ret

end FMI3

namespace FMI2

omit S [Arith F] [HasInf F] in
theorem run_noUb {β : Type} {w : World F D} {r : Res F D β} {out : β → Out F} (h : r.NoUb) : (w.run r out).NoUb :=
  h.bind fun _ => .ret
omit S [Arith F] [HasInf F] in
theorem runSlot_noUb {w : World F D} {i : Nat} {r : Res F D (Option (Comp F D))} (h : r.NoUb) : (w.runSlot i r).NoUb :=
  h.bind fun _ => .ret
omit S [Arith F] [HasInf F] in
theorem runBuf_noUb {w : World F D} {i : Nat} {r : Res F D (Option (Buffer F D))} (h : r.NoUb) : (w.runBuf i r).NoUb :=
  h.bind fun _ => .ret

theorem getVariables_noUb {t : VType} {c : Comp F D} {vr : Ptr Nat} {n : Nat} {v : Ptr (t.Val F)}
    (h : c.Sound m K J) (hvr : vr.Has n) (hv : v.Has n) : (getVariables m t vr n v c).NoUb := by
  unfold getVariables
  split
  · exact .ret
  · refine nonNull_noUb (nonNull_noUb (h.refresh S fun c h => ?_))
    exact (getLoop_noUb S hvr n h (by omega) hv).bind fun _ => .ret

theorem setVariables_noUb {t : VType} {c : Comp F D} {vr : Ptr Nat} {n : Nat} {v : Ptr (t.Val F)}
    (h : c.Sound m K J) (hvr : vr.Has n) (hv : v.Has n) (hg : v.Good) : (setVariables m t vr n v c).NoUb := by
  unfold setVariables
  split
  · exact .ret
  · refine nonNull_noUb (nonNull_noUb ?_)
    refine (setLoop_noUb S hvr hv hg (fun _ => Nat.le_refl _) n h (by omega) fun _ => rfl).bind ?_
    rintro ⟨c, st, i⟩
    simp only
    split <;> exact .ret

theorem getBooleanLoop_noUb {vr : Ptr Nat} {nn : Nat} (hvr : vr.Has nn) (n : Nat) :
    ∀ {i} {c : Comp F D} {v : Ptr Int}, c.Sound m K J → i + n = nn → v.Has nn →
      (getBooleanLoop m vr nn n i c .OK v).NoUb := by
  induction n with
  | zero => intro i c v _ _ _; exact .ret
  | succ n ih =>
    intro i c v h hi hv
    refine (hvr.read (i := i) (by omega)).nbind fun r _ => ?_
    refine call_noUb (I := fun c x => c.Sound m K J ∧ ∃ b, x.1 = some [b]) ?_ ?_
    · refine (h.run S (S.getB h.ctx h.mv) fun _ _ _ e => .get e).mono fun x hx => ?_
      rcases hx.2.1 with e | e
      · exact .inl ⟨e, hx.1, hx.2.2.1⟩
      · exact .inr e
    · rintro c ⟨p, ix⟩ ⟨h, b, hb⟩
      simp only at hb; subst hb
      simp only [Ptr.read, List.getElem?_cons_zero, Outcome.ret_bind]
      exact (hv.write (i := i) (by omega)).nbind fun v hv => ih h (by omega) hv

theorem setBooleanLoop_noUb {vr : Ptr Nat} {v : Ptr Int} {nn : Nat} (hvr : vr.Has nn) (hv : v.Has nn) (n : Nat) :
    ∀ {i} {c : Comp F D}, c.Sound m K J → i + n = nn → (setBooleanLoop m vr nn v n i c .OK).NoUb := by
  induction n with
  | zero => intro i c _ _; exact .ret
  | succ n ih =>
    intro i c h hi
    refine (hv.read (i := i) (by omega)).nbind fun b _ => ?_
    refine (hvr.read (i := i) (by omega)).nbind fun r _ => ?_
    exact call_noUb (h.call S (S.setB h.ctx h.mv) fun _ _ _ e => .set e) fun c _ h => ih h (by omega)

theorem doStepLoop_noUb {next : F} (fuel : Nat) : ∀ {c : Comp F D}, c.Sound m K J → Q c.mv →
    (doStepLoop m next fuel c .OK).NoUb := by
  induction fuel with
  | zero => intro c _ _; exact .hang
  | succ fuel ih =>
    intro c h hq
    unfold doStepLoop
    simp only
    split
    · exact .ret
    · refine call_noUb (doFixedStep_safe S h) ?_
      rintro c1 ev ⟨h1, a1, hev⟩
      have rest : ∀ c : Comp F D, c.Sound m K J →
          (if c.mv.terminateSimulation = true then .ret (c, .Discard, ()) else doStepLoop m next fuel c .OK : Res F D Unit).NoUb := by
        intro c h
        split
        · exact .ret
        · next ht => exact ih h (S.room h.mv (by simpa using ht))
      unfold handleEvents
      split
      · exact rest _ h1
      · next eu heu =>
        split
        · contradiction
        · split
          · exact call_noUb (h1.event S heu (a1.1 hq)) fun c _ h => rest _ h.1
          · exact rest _ h1

/-- A well-formed call does not execute undefined behaviour. -/
theorem step_noUb {fuel : Nat} {w : World F D} {op : Op F} (h : w.inst.Sound m K J) (wf : WellFormed w op)
    (hev : op.fn = .newDiscreteStates ∨ op.fn = .doStep → Q w.inst.mv) : (step m fuel w op).NoUb := by
  cases op with
  | setDebugLogging on n cats =>
    simp only [step, FMI2.setDebugLogging, FMI2.begin]
    exact run_noUb (begin_noUb (callLast_noUb (setDebugLogging_noUb wf)))
  | setupExperiment a d b =>
    simp only [step, FMI2.setupExperiment, FMI2.begin]
    exact run_noUb (begin_noUb .ret)
  | enterInitializationMode =>
    simp only [step, FMI2.enterInitializationMode, FMI2.begin]
    exact run_noUb (begin_noUb .ret)
  | exitInitializationMode =>
    simp only [step, FMI2.exitInitializationMode, FMI2.begin]
    refine run_noUb (begin_noUb (h.refresh S fun c h => ?_))
    exact callLast_noUb (configurate_noUb S (h.setState S _))
  | terminate =>
    simp only [step, FMI2.terminate, FMI2.begin]
    exact run_noUb (begin_noUb .ret)
  | reset =>
    simp only [step, FMI2.reset, FMI2.begin]
    exact run_noUb (begin_noUb (callLast_noUb .ret))
  | getReal vr n v =>
    simp only [step, FMI2.getReal, FMI2.begin]
    exact run_noUb (begin_noUb (getVariables_noUb S h wf.1 wf.2))
  | getInteger vr n v =>
    simp only [step, FMI2.getInteger, FMI2.begin]
    exact run_noUb (begin_noUb (getVariables_noUb S h wf.1 wf.2))
  | getBoolean vr n v =>
    simp only [step, FMI2.getBoolean, FMI2.begin]
    exact run_noUb (begin_noUb (getBooleanLoop_noUb S wf.1 n h (by omega) wf.2))
  | getString vr n v =>
    simp only [step, FMI2.getString, FMI2.begin]
    exact run_noUb (begin_noUb (getVariables_noUb S h wf.1 wf.2))
  | setReal vr n v =>
    simp only [step, FMI2.setReal, FMI2.begin]
    exact run_noUb (begin_noUb (setVariables_noUb (t := .float64) S h wf.1 wf.2 fun _ _ _ _ => trivial))
  | setInteger vr n v =>
    simp only [step, FMI2.setInteger, FMI2.begin]
    exact run_noUb (begin_noUb (setVariables_noUb (t := .int32) S h wf.1 wf.2 fun _ _ _ _ => trivial))
  | setBoolean vr n v =>
    simp only [step, FMI2.setBoolean, FMI2.begin]
    exact run_noUb (begin_noUb (setBooleanLoop_noUb S wf.1 wf.2 n h (by omega)))
  | setString vr n v =>
    simp only [step, FMI2.setString, FMI2.begin]
    exact run_noUb (begin_noUb (setVariables_noUb S h wf.1 wf.2.1 wf.2.2))
  | getFMUstate i =>
    simp only [step, FMI2.getFMUstate, FMI2.begin]
    exact runSlot_noUb (begin_noUb .ret)
  | setFMUstate i =>
    simp only [step, FMI2.setFMUstate, FMI2.begin]
    refine run_noUb (begin_noUb ?_)
    split <;> exact .ret
  | freeFMUstate i =>
    simp only [step, FMI2.freeFMUstate, FMI2.begin]
    exact runSlot_noUb (begin_noUb .ret)
  | serializedFMUstateSize n =>
    simp only [step, FMI2.serializedFMUstateSize, FMI2.begin]
    refine run_noUb (begin_noUb ?_)
    split
    · exact absurd rfl wf
    · exact .ret
  | serializeFMUstate i b n =>
    simp only [step, FMI2.serializeFMUstate, FMI2.begin]
    refine runBuf_noUb (begin_noUb ?_)
    split
    · exact .ret
    · split
      · exact .ret
      · next hn => exact (store_noUb (by simpa using hn) wf).bind fun _ => .ret
  | deSerializeFMUstate b n i =>
    simp only [step, FMI2.deSerializeFMUstate, FMI2.begin]
    refine runSlot_noUb (begin_noUb ?_)
    split
    · exact .ret
    · next hn => exact (load_noUb (by simpa using hn) wf.1 wf.2).bind fun _ => .ret
  | getDirectionalDerivative u nu k nk s v =>
    simp only [step, FMI2.getDirectionalDerivative, FMI2.begin]
    refine run_noUb (begin_noUb (derivOuter_noUb S ?_ wf.2.2.1 nu h (by omega) wf.2.2.2))
    exact fun i j hi hj => (wf.1.read hi).nbind fun _ _ => (wf.2.1.read hj).nbind fun _ _ => .ret
  | setRealInputDerivatives =>
    simp only [step, FMI2.setRealInputDerivatives, FMI2.begin]
    exact run_noUb (begin_noUb .ret)
  | getRealOutputDerivatives vr n o v =>
    simp only [step, FMI2.getRealOutputDerivatives, FMI2.begin]
    refine run_noUb (begin_noUb ?_)
    split
    · next f hf => exact outputDerivLoop_noUb S hf wf.1 wf.2.1 n h (by omega) wf.2.2
    · exact .ret
  | cancelStep =>
    simp only [step, FMI2.cancelStep, FMI2.begin]
    exact run_noUb (begin_noUb .ret)
  | doStep ccp hh =>
    simp only [step, FMI2.doStep, FMI2.begin]
    refine run_noUb (begin_noUb ?_)
    repeat' split
    all_goals first | exact .ret | skip
    exact doStepLoop_noUb S fuel h (hev (.inr rfl))
  | getStatus s =>
    simp only [step, FMI2.getStatus, FMI2.begin]
    exact run_noUb (begin_noUb (callLast_noUb (by cases s <;> exact .ret)))
  | getRealStatus s v =>
    simp only [step, FMI2.getRealStatus, FMI2.begin]
    refine run_noUb (begin_noUb ?_)
    split
    · split
      · exact absurd rfl wf
      · exact .ret
    · exact callLast_noUb (by cases s <;> exact .ret)
  | getIntegerStatus s =>
    simp only [step, FMI2.getIntegerStatus, FMI2.begin]
    exact run_noUb (begin_noUb (callLast_noUb (by cases s <;> exact .ret)))
  | getBooleanStatus s v =>
    simp only [step, FMI2.getBooleanStatus, FMI2.begin]
    refine run_noUb (begin_noUb ?_)
    split
    · split
      · exact absurd rfl wf
      · exact .ret
    · exact callLast_noUb (by cases s <;> exact .ret)
  | getStringStatus s =>
    simp only [step, FMI2.getStringStatus, FMI2.begin]
    exact run_noUb (begin_noUb (callLast_noUb (by cases s <;> exact .ret)))
  | enterEventMode =>
    simp only [step, FMI2.enterEventMode, FMI2.begin]
    exact run_noUb (begin_noUb .ret)
  | newDiscreteStates i =>
    simp only [step, FMI2.newDiscreteStates, FMI2.begin]
    refine run_noUb (begin_noUb ?_)
    have hk : ∀ (c : Comp F D) st, (match i with
        | none => .ub
        | some _ => .ret (c, st, some c.mv.eventInfo) : Res F D (Option (EventInfo F))).NoUb := by
      intro c st
      split
      · exact absurd rfl wf
      · exact .ret
    split
    · exact hk _ _
    · next eu heu => exact call_noUb (h.event S heu (hev (.inl rfl))) fun _ _ _ => hk _ _
  | enterContinuousTimeMode =>
    simp only [step, FMI2.enterContinuousTimeMode, FMI2.begin]
    exact run_noUb (begin_noUb .ret)
  | completedIntegratorStep a b =>
    simp only [step, FMI2.completedIntegratorStep, FMI2.begin]
    refine run_noUb (begin_noUb ?_)
    split <;> exact .ret
  | setTime t =>
    simp only [step, FMI2.setTime, FMI2.begin]
    exact run_noUb (begin_noUb .ret)
  | setContinuousStates x n =>
    simp only [step, FMI2.setContinuousStates, FMI2.begin]
    exact run_noUb (begin_noUb (callLast_noUb ((S.setX h.ctx h.mv wf).bind fun _ => .ret)))
  | getDerivatives x n =>
    simp only [step, FMI2.getDerivatives, FMI2.begin]
    exact run_noUb (begin_noUb (callLast_noUb ((S.getDX h.ctx h.mv wf).noUb.bind fun _ => .ret)))
  | getEventIndicators x n =>
    simp only [step, FMI2.getEventIndicators, FMI2.begin]
    exact run_noUb (begin_noUb (callLast_noUb ((S.getZ h.ctx h.mv wf).noUb.bind fun _ => .ret)))
  | getContinuousStates x n =>
    simp only [step, FMI2.getContinuousStates, FMI2.begin]
    exact run_noUb (begin_noUb (callLast_noUb ((S.getX h.ctx h.mv wf).noUb.bind fun _ => .ret)))
  | getNominals x n =>
    simp only [step, FMI2.getNominals, FMI2.begin]
    exact run_noUb (begin_noUb (callLast_noUb ((S.nominals h.ctx h.mv wf).bind fun _ => .ret)))

end FMI2
end Verif
