import Verif.Lemmas.Traj

/-! # Modes in which variables can be read; the end of the initialisation -/

set_option linter.unusedSectionVars false

namespace Verif
variable {F D : Type} [Arith F] [HasInf F] {m : Model F D} {upd : D → D}

namespace FMI2

/-- Variables can be read. -/
def Readable (c : Comp F D) : Prop := c.ctx.state ∈ Spec.allowedIn .getReal

theorem Readable.callInv (m : Model F D) :
    CallInvX (fun fn => fn = .reset ∨ fn = .setFMUstate) (fun _ => True) m (fun _ => True) Readable where
  lift h _ _ := h
  log _ h := h
  dirty _ h := h
  calls _ _ _ _ := trivial
  step _ :=
    { lift := fun h _ _ => h
      log := fun _ h => h
      dirty := fun _ h => h
      adv := fun h _ => h
      iu := fun h _ => h
      ncp := fun _ h => h
      x := fun _ h => h
      dx := fun _ h => h
      z := fun _ h => h
      prez := fun _ h => h }
  nx _ _ h := h
  nz _ _ h := h
  prez _ _ _ h := h
  term h := by simp [Readable, Comp.setState, Spec.allowedIn]
  setup _ _ _ _ h _ := h
  enterInit _ _ _ _ := by simp [Readable, Comp.setState, Spec.allowedIn]
  reset h := absurd (.inl rfl) h
  restore h := absurd (.inr rfl) h
  enterEvent _ _ _ _ := by simp [Readable, Comp.setState, Spec.allowedIn]
  enterCT _ _ _ _ := by simp [Readable, Comp.setState, Spec.allowedIn]
  setTime _ _ _ h _ := h
  exitInit _ c h e := by
    simp only [Readable, Comp.setState]
    split <;> simp [Spec.allowedIn]

theorem run_readable (hm : OkOrError m) {fuel : Nat} {ops : List (Op F)} {w w' : World F D} {outs}
    (h : Readable w.inst) (hops : ∀ op ∈ ops, ¬ Interferes op)
    (e : run m fuel w ops = .ret (w', outs)) : Readable w'.inst :=
  run_keepX hm (Readable.callInv m) (fun {_} _ _ h => h) ops h (fun op hop h' => hops op hop (by
    rcases h' with h' | h' <;> simp [Interferes, h'])) _ e

theorem ReadsReal.readable {w : World F D} {vr : Nat} {v : F} (h : ReadsReal m w vr v) :
    Readable w.inst := by
  refine Classical.byContradiction fun hs => ?_
  obtain ⟨w1, e1⟩ := h 0 (Arith.lit 0)
  obtain ⟨w2, e2, -⟩ := refused m 0 w (.getReal (some [vr]) 1 (some [Arith.lit 0])) hs
  rw [e2] at e1
  cases e1

/-- A successful end of the initialisation. -/
theorem exit_start (hm : OkOrError m) {t : IType} {w w' : World F D} (h : Reachable m t w)
    {fuel : Nat} {o} (e : step m fuel w .exitInitializationMode = .ret (w', .OK, o)) :
    w'.inst.times.nSteps = 0 ∧ w'.inst.times.time = w'.inst.times.startTime := by
  have hs : w.inst.ctx.state = .initializationMode := by
    refine Classical.byContradiction fun hs => ?_
    obtain ⟨w1, e1, -⟩ := refused m fuel w .exitInitializationMode
      (by simpa [Spec.allowedIn, Op.fn] using hs)
    rw [e1] at e
    cases e
  obtain ⟨h1, h2⟩ := unstepped_reachable hm h (.inr hs)
  rw [passive_times hm (by simp [Interferes, Op.fn]) (by simp [Op.fn]) e]
  exact ⟨h1, h2⟩

end FMI2

namespace FMI3

/-- Variables can be read. -/
def Readable (c : Comp F D) : Prop := c.ctx.state ∈ Spec.allowedIn (.get .float64)

theorem Readable.histInv (m : Model F D) : HistInv m Readable where
  lift h _ _ := h
  log _ h := h
  dirty _ h := h
  adv h _ := h
  iu h _ := h
  ncp _ h := h
  nx h := h
  nz h := h
  x _ h := h
  dx _ h := h
  z _ h := h
  prez _ h := h
  flags _ _ h := h
  term h := by simp [Readable, Comp.setState, Spec.allowedIn]
  enterInit _ _ _ _ := by simp [Readable, Comp.setState, Comp.setTime, Spec.allowedIn]
  exitInit h _ := by
    simp only [Readable, Comp.setState, stateAfterInit]
    split
    · simp [Spec.allowedIn]
    · split <;> simp [Spec.allowedIn]
    · simp [Spec.allowedIn]
  enterConfig h e := by
    simp only [Readable, Comp.setState]
    split <;> simp [Spec.allowedIn]
  exitConfig h e := by
    simp only [Readable, Comp.setState, stateAfterConfig]
    split
    · simp [Spec.allowedIn]
    · split <;> simp [Spec.allowedIn]
  reset h := by simp [Readable, Verif.reset, Comp.setState, Comp.setTime, Comp.setDirty, Spec.allowedIn]
  restore _ h := h
  enterEvent h e := by simp [Readable, Comp.setState, Spec.allowedIn]
  enterCT h e := by simp [Readable, Comp.setState, Spec.allowedIn]
  enterStep h _ := by simp [Readable, Comp.setState, Spec.allowedIn]
  setTime _ h _ := h

theorem Reachable.readable (hm : OkOrError m) {t : IType} {w : World F D} (h : Reachable m t w) :
    Readable w.inst :=
  (Reachable.inv hm (Readable.histInv m)
    (fun _ h => by simp [Readable, h.ctx.2.1, Spec.allowedIn]) h).inst

/-- A successful end of the initialisation. -/
theorem exit_start (hm : OkOrError m) {t : IType} {w w' : World F D} (h : Reachable m t w)
    {fuel : Nat} {o} (e : step m fuel w .exitInitializationMode = .ret (w', .OK, o)) :
    w'.inst.times.nSteps = 0 ∧ w'.inst.times.time = w'.inst.times.startTime ∧
      Started w'.inst := by
  have hmo := step_mode' hm _ e
  simp only [reduceCtorEq, false_and, true_or, true_and, false_or, and_false, or_false, Spec.allowedIn,
    Op.fn, List.mem_cons, List.not_mem_nil] at hmo
  obtain ⟨-, hs, hst⟩ := hmo
  obtain ⟨h1, h2⟩ := unstepped_reachable hm h (by simp [hs])
  rw [passive_times hm (by simp [Interferes, Op.fn]) (by simp [Op.fn]) e]
  refine ⟨h1, h2, ?_⟩
  simp only [Started, hst, Spec.modeAfter, Spec.nextMode, Op.fn]
  split
  · simp
  · split <;> simp
  · simp

end FMI3
end Verif
