import Verif.Spec.Logging
import Verif.Lemmas.ModelEff
import Verif.Lemmas.Modes2
import Verif.Lemmas.Modes3
import Verif.Lemmas.Reach3

/-! # What calls log -/

set_option linter.unusedSectionVars false

namespace Verif
variable {F D : Type} {m : Model F D}

/-- The instance has switches `k`, a logger iff `g`, and since the trace was `t` only permitted
messages were delivered. -/
def Logs (k : Switches) (g : Bool) (t : List (Ev F)) (c : Comp F D) : Prop :=
  c.switches = k ∧ c.ctx.logger = g ∧ ∃ l, c.mv.trace = t ++ l ∧ ∀ e ∈ l, k.permits g e

theorem Logs.refl (c : Comp F D) : Logs c.switches c.ctx.logger c.mv.trace c :=
  ⟨rfl, rfl, [], by simp, by simp⟩

theorem Logs.emit {k g t} {c : Comp F D} (h : Logs k g t c) {e : Ev F} (he : k.permits g e) :
    Logs k g t { c with mv := { c.mv with trace := c.mv.trace ++ [e] } } := by
  obtain ⟨h1, h2, l, h3, h4⟩ := h
  refine ⟨h1, h2, l ++ [e], by simp [h3], ?_⟩
  intro e' he'
  rcases List.mem_append.1 he' with he' | he'
  · exact h4 e' he'
  · simp only [List.mem_singleton] at he'; subst he'; exact he

theorem Logs.log {k g t} {c : Comp F D} (h : Logs k g t c) (msg : String) :
    Logs k g t (c.logError msg) := by
  unfold Comp.logError logError
  split
  · next e =>
    refine h.emit ?_
    simp only [Bool.and_eq_true] at e
    exact ⟨h.2.1 ▸ e.2, .inl ⟨rfl, rfl, h.1 ▸ e.1⟩⟩
  · exact h

theorem Logs.quiet [Arith F] (he : m.Eff) (k : Switches) (g : Bool) (t : List (Ev F)) :
    StepQuiet m (Logs k g t) where
  lift {c f mv' s} h _ e := by
    obtain ⟨h1, h2, l, h3, h4⟩ := h
    obtain ⟨l', h5, h6⟩ := (he _ _ _ _ _ e).trace
    refine ⟨h1, h2, l ++ l', by simp [h5, h3], ?_⟩
    intro e he
    rcases List.mem_append.1 he with he | he
    · exact h4 e he
    · have := h6 e he
      cases e <;> simp only [Switches.permits]
      simp only [EvOK] at this
      exact ⟨h2 ▸ this.2.2.2, .inl ⟨this.2.1, this.1, h1 ▸ this.2.2.1⟩⟩
  log msg h := h.log msg
  dirty _ h := h
  adv h _ := h
  iu h _ := h.emit trivial
  ncp _ h := h
  nx h := h
  nz h := h
  x _ h := h
  dx _ h := h
  z _ h := h
  prez _ h := h

theorem Logs.reset [Arith F] {k g t} (hs : ∀ ctx mv, (m.setStartValues ctx mv).trace = mv.trace)
    {c : Comp F D} (h : Logs k g t c) : (Verif.reset m c).All fun x => Logs k g t x.1 := by
  simp only [Verif.reset, Outcome.all_ret]
  obtain ⟨h1, h2, l, h3, h4⟩ := h
  exact ⟨h1, h2, l, by simpa [Comp.setDirty, Comp.setState, Comp.setTime, hs] using h3, h4⟩

/-- The loop of `setDebugLogging`. -/
theorem setDebugLoggingLoop_eq (on : Bool) (L : List (Option String)) (n : Nat) :
    ∀ (i : Nat) (c c' : Comp F D) (s : Status) (u : Unit),
      setDebugLoggingLoop on (some L) n i c = .ret (c', s, u) →
      c'.switches = (c.switches.name on ((L.drop i).take n)).1 ∧
      (s = if (c.switches.name on ((L.drop i).take n)).2 then .OK else .Error) ∧
      Logs c'.switches c.ctx.logger c.mv.trace c' := by
  induction n with
  | zero =>
    intro i c c' s u h
    simp only [setDebugLoggingLoop] at h
    cases h
    simp only [List.take_zero, Switches.name, if_true, true_and]
    exact .refl c
  | succ n ih =>
    intro i c c' s u h
    simp only [setDebugLoggingLoop, Ptr.read] at h
    cases hL : L[i]? with
    | none => simp [hL] at h
    | some cat =>
      have hd : L.drop i = cat :: L.drop (i + 1) := by
        obtain ⟨hi, rfl⟩ := List.getElem?_eq_some_iff.1 hL
        exact List.drop_eq_getElem_cons hi
      simp only [hL, Outcome.ret_bind] at h
      rw [hd, List.take_succ_cons]
      cases cat with
      | none =>
        cases h
        refine ⟨?_, ?_, ?_⟩
        · simp [Switches.name, Comp.logError, Comp.switches]
        · simp [Switches.name]
        · exact (Logs.refl c).log _
      | some str =>
        simp only at h
        split at h
        · next e => simp only [Switches.name, if_pos e]; exact ih _ _ _ _ _ h
        · next e =>
          split at h
          · next e' => simp only [Switches.name, if_neg e, if_pos e']; exact ih _ _ _ _ _ h
          · next e' =>
            cases h
            simp only [Switches.name, if_neg e, if_neg e']
            exact ⟨rfl, rfl, (Logs.refl c).log _⟩

theorem setDebugLogging_eq {c c' : Comp F D} {on n cats s u}
    (h : setDebugLogging c on n cats = .ret (c', s, u)) :
    c'.switches = (c.switches.set on n cats).1 ∧
      (s = if (c.switches.set on n cats).2 then .OK else .Error) ∧
      Logs c'.switches c.ctx.logger c.mv.trace c' := by
  unfold setDebugLogging at h
  unfold Switches.set
  split at h
  · next hn =>
    rw [if_neg (by omega)]
    cases cats with
    | none => cases h; exact ⟨rfl, rfl, (Logs.refl c).log _⟩
    | some L => simpa using setDebugLoggingLoop_eq on L n 0 c c' s u h
  · next hn =>
    rw [if_pos (by omega)]
    cases h
    refine ⟨rfl, rfl, rfl, rfl, [], by simp, by simp⟩

theorem callLast_eq {α : Type} {r : Res F D α} {c' : Comp F D} {s a}
    (h : callLast r id = .ret (c', s, a)) :
    ∃ c₁, r = .ret (c₁, s, a) ∧ (c' = c₁ ∨ ∃ md, c' = c₁.setState md) := by
  unfold callLast call at h
  obtain ⟨⟨c₁, s₁, a₁⟩, e, h⟩ := Outcome.bind_eq_ret.1 h
  refine ⟨c₁, ?_⟩
  cases s₁ <;> simp [Status.rank] at h <;> obtain ⟨rfl, rfl, rfl⟩ := h <;>
    first | exact ⟨e, .inl rfl⟩ | exact ⟨e, .inr ⟨_, rfl⟩⟩

theorem Logs.state {k g t} {c : Comp F D} (h : Logs k g t c) (md : Mode) :
    Logs k g t (c.setState md) := h

variable [Arith F] [HasInf F]

theorem FMI2.Logs.callInv (he : m.Eff) (hs : ∀ ctx mv, (m.setStartValues ctx mv).trace = mv.trace)
    (k : Switches) (g : Bool) (t : List (Ev F)) : FMI2.CallInv m (fun _ => True) (Logs k g t) where
  toStepQuiet := Logs.quiet he k g t
  term h := h
  setup _ _ h _ := h
  enterInit h _ := h
  exitInit h _ := h
  reset h := Logs.reset hs h
  restore h _ := h
  enterEvent h _ := h
  enterCT h _ := h
  setTime _ h _ := h

theorem FMI3.Logs.callInv (he : m.Eff) (hs : ∀ ctx mv, (m.setStartValues ctx mv).trace = mv.trace)
    (k : Switches) (g : Bool) (t : List (Ev F)) : FMI3.CallInv m (fun _ => True) (Logs k g t) where
  toStepQuiet := Logs.quiet he k g t
  term h := h
  enterInit _ _ h _ := h
  exitInit h _ := h
  enterConfig h _ := h
  exitConfig h _ := h
  reset h := Logs.reset hs h
  restore h _ := h
  enterEvent h _ := h
  enterCT h _ := h
  enterStep h _ := h
  setTime _ h _ := h

theorem RefFMU2.start_trace {m : Model F D} (h : RefFMU2 m) (ctx : Ctx F) (mv : MV F D) :
    (m.setStartValues ctx mv).trace = mv.trace := by
  cases h <;> rfl
theorem RefFMU3.start_trace {m : Model F D} (h : RefFMU3 m) (ctx : Ctx F) (mv : MV F D) :
    (m.setStartValues ctx mv).trace = mv.trace := by
  cases h <;> rfl

end Verif
