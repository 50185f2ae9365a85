import Verif.Lemmas.Threaded

/-! # The program with threads: what holds under every schedule, for C77 -/

set_option linter.unusedSectionVars false

namespace Verif.Importer.Threads
open Verif Importer.CoSim Importer.Sync Clocks

/-- The activations that a thread has still to make. -/
def Thread.owes (p : Part) (th : Thread) : Nat := if th.part = p then th.todo.count .activate else 0

/-- The activations that the threads have still to make. -/
def owed (p : Part) (ths : List Thread) : Nat := (ths.map (Thread.owes p)).sum

/-- The threads of a clock. -/
def started (p : Part) (ths : List Thread) : Nat := ths.countP fun th => decide (th.part = p)

theorem owed_append (p : Part) (ths : List Thread) (th : Thread) : owed p (ths ++ [th]) = owed p ths + th.owes p := by
  simp [owed]

theorem started_append (p : Part) (ths : List Thread) (th : Thread) : started p (ths ++ [th]) = started p ths + if th.part = p then 1 else 0 := by
  simp only [started, List.countP_append, List.countP_cons, List.countP_nil]
  by_cases h : th.part = p <;> simp [h]

theorem owed_set (p : Part) : ∀ {ths : List Thread} {i : Nat} {th th' : Thread}, ths[i]? = some th → owed p (ths.set i th') + th.owes p = owed p ths + th'.owes p
  | [], i, th, th', h => by simp at h
  | x :: xs, 0, th, th', h => by
    simp only [List.getElem?_cons_zero, Option.some.injEq] at h
    subst h
    simp only [List.set_cons_zero, owed, List.map_cons, List.sum_cons]
    omega
  | x :: xs, i + 1, th, th', h => by
    simp only [List.getElem?_cons_succ] at h
    have := owed_set p (th' := th') h
    simp only [owed, List.set_cons_succ, List.map_cons, List.sum_cons] at this ⊢
    omega

theorem started_set (p : Part) : ∀ {ths : List Thread} {i : Nat} {th th' : Thread}, ths[i]? = some th → th'.part = th.part → started p (ths.set i th') = started p ths
  | [], i, th, th', h, _ => by simp at h
  | x :: xs, 0, th, th', h, e => by
    simp only [List.getElem?_cons_zero, Option.some.injEq] at h
    subst h
    simp [started, List.countP_cons, e]
  | x :: xs, i + 1, th, th', h, e => by
    simp only [List.getElem?_cons_succ] at h
    have := started_set p h e
    simp only [started, List.set_cons_succ, List.countP_cons] at this ⊢
    omega

theorem owed_idle {s : TProg} (h : Idle s) (p : Part) : owed p s.threads = 0 := by
  unfold Idle at h
  unfold owed
  generalize s.threads = ths at h ⊢
  induction ths with
  | nil => rfl
  | cons th ths ih =>
    simp only [List.map_cons, List.sum_cons, ih fun x hx => h x (by simp [hx]), Thread.owes, h th (by simp)]
    simp

/-- What holds after `k` steps, as long as the main program has not finished. -/
structure Inv (stop : Nat) (s : TProg) (k : Nat) : Prop where
  alive : s.alive = true
  unfinished : s.main = .first ∨ s.main = .second ∨ s.main = .advance ∨ s.main = .terminate
  fmu : Fmu s.w (activations s) k s.w.inst.mv.data.inClock3_qualifier
  calls : ∀ c ∈ s.calls, c.2.2 = .OK
  time : s.time ≤ k
  args : ∀ p, s.args p ≤ k
  input : 0 ≤ s.input ∧ s.input ≤ 1000
  output : 0 ≤ s.output ∧ s.output ≤ 1000
  once : ∀ th ∈ s.threads, th.todo.count .activate ≤ 1
  owed : ∀ p, activations s p + owed p s.threads = started p s.threads
  one : started .one s.threads = s.time + if s.main = .second ∨ s.main = .advance then 1 else 0
  two : started .two s.threads = before Second s.time + if s.main = .advance ∧ Second s.time then 1 else 0
  bound : s.time ≤ stop ∧ (s.time < stop ∨ s.main = .first ∨ s.main = .terminate) ∧ (s.main = .terminate → s.time = stop)

/-- The steps of the main program so far. -/
def Prog.pos (s : TProg) : Nat := 3 * s.time + match s.main with
  | .first => 0
  | .second => 1
  | .advance => 2
  | .terminate => 1
  | .free => 2
  | .done => 3

/-- A step of a thread that changes the program to `s'`, where the thread goes on with `th'`. -/
theorem Inv.goes {stop k : Nat} {s s' : TProg} (h : Inv stop s k) {i : Nat} {th th' : Thread} (hi : s.threads[i]? = some th)
    (hal : s'.alive = s.alive) (hm : s'.main = s.main) (htm : s'.time = s.time) (har : ∀ p, s'.args p ≤ k)
    (hin : 0 ≤ s'.input ∧ s'.input ≤ 1000) (hou : 0 ≤ s'.output ∧ s'.output ≤ 1000) (hth : s'.threads = s.threads)
    (hp : th'.part = th.part) {k' : Nat} (hk : k ≤ k') (hf : Fmu s'.w (activations s') k' s'.w.inst.mv.data.inClock3_qualifier)
    (hc : ∀ c ∈ s'.calls, c.2.2 = .OK) (ho : th'.todo.count .activate ≤ 1)
    (ha : ∀ p, activations s' p + th'.owes p = activations s p + th.owes p) : Inv stop (s'.goesOn i th') k' := by
  refine ⟨hal.trans h.alive, by show s'.main = _ ∨ s'.main = _ ∨ s'.main = _ ∨ s'.main = _; rw [hm]; exact h.unfinished, hf, hc, (htm ▸ h.time : s'.time ≤ k).trans hk, fun p => (har p).trans hk, hin, hou, ?_, ?_, ?_, ?_, ?_⟩
  · intro x hx
    rcases List.mem_or_eq_of_mem_set hx with hx | rfl
    · exact h.once x (hth ▸ hx)
    · exact ho
  · intro p
    show activations s' p + Threads.owed p (s'.threads.set i th') = started p (s'.threads.set i th')
    rw [hth, started_set p hi hp, ← h.owed p]
    have := owed_set p (th' := th') hi
    have := ha p
    omega
  · show started .one (s'.threads.set i th') = s'.time + if s'.main = _ ∨ s'.main = _ then 1 else 0
    rw [hth, started_set _ hi hp, hm, htm]; exact h.one
  · show started .two (s'.threads.set i th') = before Second s'.time + if s'.main = _ ∧ Second s'.time then 1 else 0
    rw [hth, started_set _ hi hp, hm, htm]; exact h.two
  · show s'.time ≤ stop ∧ (s'.time < stop ∨ s'.main = _ ∨ s'.main = _) ∧ (s'.main = _ → s'.time = stop)
    rw [hm, htm]; exact h.bound

theorem activations_other {s s' : TProg} {p : Part} {a : Todo} {st : Status} (h : s'.calls = s.calls ++ [(p, a, st)]) (ha : a ≠ .activate) :
    activations s' = activations s := by
  funext q
  simp [activations, h, List.count_append, List.count_cons, ha]

theorem activations_one {s s' : TProg} {p : Part} (h : s'.calls = s.calls ++ [(p, .activate, .OK)]) : activations s' = bump (activations s) p := by
  funext q
  by_cases e : p = q
  · subst e; simp [activations, bump, h, List.count_append]
  · simp [activations, bump, h, List.count_append, List.count_cons, e, Ne.symm e]

theorem owes_cons {th : Thread} {a : Todo} {rest : List Todo} (h : th.todo = a :: rest) (ha : a ≠ .activate) (p : Part) :
    ({ th with todo := rest } : Thread).owes p = th.owes p := by
  simp [Thread.owes, h, List.count_cons, ha]

/-- The qualifier in the FMU. -/
abbrev Prog.fq (s : TProg) : Int := s.w.inst.mv.data.inClock3_qualifier

/-- The effect of a step of the thread `i` on what matters for inClock3; `todo` is what the thread has left to do. -/
def Effect (s s' : TProg) (th : Thread) (a : Todo) (rest todo : List Todo) : Prop :=
  match a with
  | .activate => s'.fq = (if th.part = .one ∧ s.args .one = 4 then 2 else s.fq) ∧ s'.qualifier = s.qualifier ∧ (todo = rest ∨ todo = callback ++ rest) ∧
      (th.part = .one → s.args .one = 4 → todo = callback ++ rest)
  | .clearInterval => s'.fq = s.fq ∧ s'.qualifier = 0 ∧ todo = rest
  | .askInterval => s'.fq = (if s.fq = 2 then 1 else s.fq) ∧ s'.qualifier = s.fq ∧ todo = rest
  | .keepInterval => s'.fq = s.fq ∧ s'.qualifier = s.qualifier ∧ (todo = rest ∨ todo = .testInterval :: rest) ∧ (s.qualifier = 2 → todo = .testInterval :: rest)
  | .testInterval => s'.fq = s.fq ∧ s'.qualifier = s.qualifier ∧ todo = if s.qualifier = 2 then .startThird :: rest else rest
  | _ => s'.fq = s.fq ∧ s'.qualifier = s.qualifier ∧ todo = rest

/-- What a thread that makes a step leaves of the invariant, with the effect of the step. -/
theorem Inv.thread {stop k : Nat} {s : TProg} (h : Inv stop s k) (hk : 1000 * (k + 1) < 2 ^ 31) {i : Nat} {th : Thread} {a : Todo} {rest : List Todo}
    (hi : s.threads[i]? = some th) (hd : th.todo = a :: rest) (fuel : Nat) :
    ∃ s', s.exec Clocks.model fuel i th a rest = .ret s' ∧ Inv stop s' (k + 1) ∧ (s'.time = s.time ∧ s'.main = s.main ∧ s'.args .one = s.args .one) ∧
      ∃ th' : Thread, th'.part = th.part ∧ s'.threads = s.threads.set i th' ++ (if a = .startThird then [{ part := .three, todo := body .three }] else []) ∧
        Effect s s' th a rest th'.todo ∧ activations s' = if a = .activate then bump (activations s) th.part else activations s := by
  have hmem : th ∈ s.threads := List.mem_of_getElem? hi
  have hcnt := h.once th hmem
  rw [hd] at hcnt
  have hok : ∀ p' a', ∀ c ∈ s.calls ++ [(p', a', Status.OK)], c.2.2 = .OK := by
    intro p' a' c hc
    rcases List.mem_append.1 hc with hc | hc
    · exact h.calls c hc
    · simp only [List.mem_singleton] at hc; subst hc; rfl
  have hrest : ∀ {a'}, a' ≠ Todo.activate → a = a' → rest.count .activate ≤ 1 := by
    rintro a' ha rfl; simpa [List.count_cons, ha] using hcnt
  have kk := Nat.le_succ k
  -- a step without a call
  have plain : ∀ (s₁ : TProg) (th₁ : Thread), a ≠ .activate → a ≠ .startThird → s₁.w = s.w → s₁.calls = s.calls → s₁.alive = s.alive → s₁.main = s.main →
      s₁.time = s.time → (∀ p, s₁.args p ≤ k) → s₁.args .one = s.args .one → (0 ≤ s₁.input ∧ s₁.input ≤ 1000) → s₁.output = s.output → s₁.threads = s.threads →
      th₁.part = th.part → th₁.todo.count .activate = rest.count .activate → Effect s s₁ th a rest th₁.todo → s.exec Clocks.model fuel i th a rest = .ret (s₁.goesOn i th₁) →
      ∃ s', s.exec Clocks.model fuel i th a rest = .ret s' ∧ Inv stop s' (k + 1) ∧ (s'.time = s.time ∧ s'.main = s.main ∧ s'.args .one = s.args .one) ∧
        ∃ th' : Thread, th'.part = th.part ∧ s'.threads = s.threads.set i th' ++ (if a = .startThird then [{ part := .three, todo := body .three }] else []) ∧
          Effect s s' th a rest th'.todo ∧ activations s' = if a = .activate then bump (activations s) th.part else activations s := by
    intro s₁ th₁ ha hs hw hc hal hm ht har har1 hin hou hth hp hcn hef e
    have hac : activations s₁ = activations s := by funext p; simp [activations, hc]
    refine ⟨_, e, h.goes hi hal hm ht har hin (hou ▸ h.output) hth hp kk ?_ ?_ ?_ ?_, ⟨ht, hm, har1⟩, th₁, hp, ?_, ?_, (if_neg ha).symm ▸ hac⟩
    · rw [hac, hw]; exact h.fmu.mono kk
    · rw [hc]; exact h.calls
    · rw [hcn]; exact hrest ha rfl
    · intro p; rw [hac]; simp [Thread.owes, hp, hcn, hd, List.count_cons, ha]
    · rw [if_neg hs, List.append_nil, ← hth]; rfl
    · revert hef; unfold Effect; cases a <;> exact id
  -- a step with a call
  have called : ∀ (s₁ : TProg) (th₁ : Thread) (w' : CWorld) (q' : Int), a ≠ .activate → a ≠ .startThird → s₁.w = w' → s₁.calls = s.calls ++ [(th.part, a, .OK)] →
      Fmu w' (activations s) k q' → s₁.alive = s.alive → s₁.main = s.main →
      s₁.time = s.time → s₁.args = s.args → s₁.input = s.input → (0 ≤ s₁.output ∧ s₁.output ≤ 1000) → s₁.threads = s.threads →
      th₁.part = th.part → th₁.todo = rest → Effect s s₁ th a rest th₁.todo → s.exec Clocks.model fuel i th a rest = .ret (s₁.goesOn i th₁) →
      ∃ s', s.exec Clocks.model fuel i th a rest = .ret s' ∧ Inv stop s' (k + 1) ∧ (s'.time = s.time ∧ s'.main = s.main ∧ s'.args .one = s.args .one) ∧
        ∃ th' : Thread, th'.part = th.part ∧ s'.threads = s.threads.set i th' ++ (if a = .startThird then [{ part := .three, todo := body .three }] else []) ∧
          Effect s s' th a rest th'.todo ∧ activations s' = if a = .activate then bump (activations s) th.part else activations s := by
    intro s₁ th₁ w' q' ha hs hw hc f hal hm ht har hin hou hth hp htd hef e
    have hac : activations s₁ = activations s := activations_other hc ha
    refine ⟨_, e, h.goes hi hal hm ht (har ▸ h.args) (hin ▸ h.input) hou hth hp kk ?_ ?_ ?_ ?_, ⟨ht, hm, by show s₁.args .one = _; rw [har]⟩, th₁, hp, ?_, ?_, (if_neg ha).symm ▸ hac⟩
    · rw [hac, hw, f.qual]; exact f.mono kk
    · rw [hc]; exact hok _ _
    · rw [htd]; exact hrest ha rfl
    · intro p; rw [hac]; simp [Thread.owes, hp, htd, hd, List.count_cons, ha]
    · rw [if_neg hs, List.append_nil, ← hth]; rfl
    · revert hef; unfold Effect; cases a <;> exact id
  cases a with
  | setInput =>
    obtain ⟨w', e, f⟩ := h.fmu.set h.input.1 h.input.2 fuel
    refine called { s with w := w', calls := s.calls ++ [(th.part, .setInput, .OK)] } { th with todo := rest } w' _ (by decide) (by decide) rfl rfl f rfl rfl rfl rfl rfl h.output rfl rfl rfl
      ⟨f.qual, rfl, rfl⟩ ?_
    simp only [Prog.exec, Prog.call, h.alive, if_true, e, Outcome.ret_bind]
  | zeroInput =>
    exact plain { s with input := 0 } { th with todo := rest } (by decide) (by decide) rfl rfl rfl rfl rfl h.args rfl (by simp) rfl rfl rfl rfl ⟨rfl, rfl, rfl⟩ rfl
  | activate =>
    have ht := h.args th.part
    obtain ⟨w', e, f, hcb1⟩ := h.fmu.activate hk th.part (t := s.args th.part) (by omega) fuel
    have e' : FMI3.step Clocks.model fuel s.w (.activateModelPartition th.part.clock (Arith.lit (s.args th.part : Rat))) = .ret (w', .OK, .unit) := e
    have hr0 : rest.count .activate = 0 := by simp only [List.count_cons, beq_self_eq_true, if_true] at hcnt; omega
    have hcb : ∀ b : Bool, ((if b = true then callback else []) ++ rest).count .activate = 0 := by
      intro b; cases b <;> simp [callback, List.count_append, List.count_cons, hr0]
    let s₁ : TProg := { s with w := w', calls := s.calls ++ [(th.part, .activate, .OK)] }
    let th₁ : Thread := { th with todo := (if calledBack s.w w' = true then callback else []) ++ rest }
    have hac : activations s₁ = bump (activations s) th.part := activations_one rfl
    refine ⟨s₁.goesOn i th₁, ?_, h.goes (s' := s₁) (th' := th₁) hi rfl rfl rfl h.args h.input h.output rfl rfl kk ?_ (hok _ _) ?_ ?_, ⟨rfl, rfl, rfl⟩, th₁, rfl, ?_, ?_, hac⟩
    · simp only [Prog.exec, Prog.call, h.alive, if_true, e', Outcome.ret_bind, s₁, th₁, calledBack]
      rfl
    · rw [hac]; show Fmu w' _ _ w'.inst.mv.data.inClock3_qualifier; rw [f.qual]; exact f
    · show ((if calledBack s.w w' = true then callback else []) ++ rest).count .activate ≤ 1
      rw [hcb]; omega
    · intro p
      rw [hac]
      simp only [Thread.owes, hd, th₁, hcb, List.count_cons, beq_self_eq_true, hr0, bump]
      by_cases hp : th.part = p
      · simp [hp]
      · simp [hp, Ne.symm hp]
    · simp [Prog.goesOn, s₁]
    · refine ⟨?_, rfl, ?_, ?_⟩
      · show w'.inst.mv.data.inClock3_qualifier = _
        rw [f.qual]
        by_cases h1 : th.part = .one
        · rw [h1]
        · simp [h1]
      · show (if calledBack s.w w' = true then callback else []) ++ rest = _ ∨ (if calledBack s.w w' = true then callback else []) ++ rest = _
        split
        · exact .inr rfl
        · exact .inl rfl
      · intro h1 h4
        show (if calledBack s.w w' = true then callback else []) ++ rest = _
        rw [if_pos (hcb1 h1 (h1 ▸ h4))]
  | getOutputs =>
    obtain ⟨w', o, e, f, ho⟩ := h.fmu.get th.part fuel
    refine called { s with w := w', calls := s.calls ++ [(th.part, .getOutputs, .OK)], output := lastOutput th.part o s.output } { th with todo := rest } w' _ (by decide) (by decide) rfl rfl f rfl
      rfl rfl rfl rfl (ho _ h.output.1 h.output.2) rfl rfl rfl ⟨f.qual, rfl, rfl⟩ ?_
    simp only [Prog.exec, Prog.call, h.alive, if_true, e, Outcome.ret_bind]
  | putInput =>
    exact plain { s with input := s.output } { th with todo := rest } (by decide) (by decide) rfl rfl rfl rfl rfl h.args rfl h.output rfl rfl rfl rfl ⟨rfl, rfl, rfl⟩ rfl
  | clearClock =>
    exact plain { s with outClock := false } { th with todo := rest } (by decide) (by decide) rfl rfl rfl rfl rfl h.args rfl h.input rfl rfl rfl rfl ⟨rfl, rfl, rfl⟩ rfl
  | askClock =>
    obtain ⟨w', o, e, f⟩ := h.fmu.clock fuel
    refine called { s with w := w', calls := s.calls ++ [(th.part, .askClock, .OK)], outClock := clockValue o } { th with todo := rest } w' _ (by decide) (by decide) rfl rfl f rfl
      rfl rfl rfl rfl h.output rfl rfl rfl ⟨f.qual, rfl, rfl⟩ ?_
    simp only [Prog.exec, Prog.call, h.alive, if_true, e, Outcome.ret_bind]
  | keepClock =>
    exact plain s { th with todo := rest, ticking := s.outClock } (by decide) (by decide) rfl rfl rfl rfl rfl h.args rfl h.input rfl rfl rfl rfl ⟨rfl, rfl, rfl⟩ rfl
  | clearInterval =>
    exact plain { s with qualifier := 0 } { th with todo := rest } (by decide) (by decide) rfl rfl rfl rfl rfl h.args rfl h.input rfl rfl rfl rfl ⟨rfl, rfl, rfl⟩ rfl
  | askInterval =>
    obtain ⟨w', o, e, hq, f⟩ := h.fmu.interval fuel
    refine called { s with w := w', calls := s.calls ++ [(th.part, .askInterval, .OK)], qualifier := qualifierValue o } { th with todo := rest } w' _ (by decide) (by decide) rfl rfl f rfl
      rfl rfl rfl rfl h.output rfl rfl rfl ⟨f.qual, hq, rfl⟩ ?_
    simp only [Prog.exec, Prog.call, h.alive, if_true, e, Outcome.ret_bind]
  | keepInterval =>
    have hc : ∀ b : Bool, (if b = true then rest else .testInterval :: rest).count .activate = rest.count .activate := by
      intro b; cases b <;> simp [List.count_cons]
    refine plain s { th with todo := if !th.ticking && s.qualifier ≠ 2 then rest else .testInterval :: rest } (by decide) (by decide) rfl rfl rfl rfl rfl h.args rfl h.input rfl rfl rfl (hc _) ⟨rfl, rfl, ?_, ?_⟩ rfl
    · show (if (!th.ticking && s.qualifier ≠ 2) = true then rest else .testInterval :: rest) = _ ∨ (if (!th.ticking && s.qualifier ≠ 2) = true then rest else .testInterval :: rest) = _
      split
      · exact .inl rfl
      · exact .inr rfl
    · intro hq
      show (if (!th.ticking && s.qualifier ≠ 2) = true then rest else .testInterval :: rest) = _
      rw [if_neg (by simp [hq])]
  | testInterval =>
    by_cases hq : s.qualifier = 2
    · refine plain { s with args := fun p => if p = Part.three then s.time else s.args p } { th with todo := .startThird :: rest } (by decide) (by decide) rfl rfl rfl rfl rfl ?_ rfl h.input rfl rfl rfl
        (by simp [List.count_cons]) ⟨rfl, rfl, by rw [if_pos hq]⟩ (by simp only [Prog.exec]; rw [if_pos hq])
      intro p; show (if p = Part.three then s.time else s.args p) ≤ k
      split
      · exact h.time
      · exact h.args p
    · exact plain s { th with todo := rest } (by decide) (by decide) rfl rfl rfl rfl rfl h.args rfl h.input rfl rfl rfl rfl ⟨rfl, rfl, by rw [if_neg hq]⟩ (by simp only [Prog.exec]; rw [if_neg hq])
  | startThird =>
    have g := h.goes (s' := s) (th' := { th with todo := rest }) hi rfl rfl rfl h.args h.input h.output rfl rfl kk (h.fmu.mono kk) h.calls
      (hrest (a' := .startThird) (by decide) rfl) fun p => by rw [owes_cons hd (by decide) p]
    refine ⟨_, rfl, ⟨g.alive, g.unfinished, g.fmu, g.calls, g.time, g.args, g.input, g.output, ?_, ?_, ?_, ?_, g.bound⟩, ⟨rfl, rfl, rfl⟩, { th with todo := rest }, rfl, rfl, ⟨rfl, rfl, rfl⟩, rfl⟩
    · intro x hx
      rcases List.mem_append.1 hx with hx | hx
      · exact g.once x hx
      · simp only [List.mem_singleton] at hx; subst hx; decide
    · intro p
      show activations (s.goesOn i { th with todo := rest }) p + Threads.owed p ((s.goesOn i { th with todo := rest }).threads ++ [{ part := .three, todo := body .three }]) =
        started p ((s.goesOn i { th with todo := rest }).threads ++ [{ part := .three, todo := body .three }])
      rw [owed_append, started_append, ← g.owed p]
      cases p <;> simp [Thread.owes, body, List.count_cons] <;> omega
    · show started .one ((s.goesOn i { th with todo := rest }).threads ++ [{ part := .three, todo := body .three }]) = _
      rw [started_append]; exact g.one
    · show started .two ((s.goesOn i { th with todo := rest }).threads ++ [{ part := .three, todo := body .three }]) = _
      rw [started_append]; exact g.two

/-- A thread is started by the main program. -/
theorem Inv.main {stop k : Nat} {s : TProg} (h : Inv stop s k) (hm : s.main ≠ .terminate) (fuel : Nat) :
    ∃ s', s.mainStep Clocks.model fuel stop = .ret s' ∧ Inv stop s' (k + 1) ∧ s'.pos = s.pos + 1 := by
  have hb := h.bound
  have ho := h.one
  have ht := h.two
  have hargs : ∀ p q, (if q = p then s.time else s.args q) ≤ k + 1 := by
    intro p q
    have := h.args q
    have := h.time
    split <;> omega
  have honce : ∀ p, ∀ th ∈ s.threads ++ [({ part := p, todo := body p } : Thread)], th.todo.count .activate ≤ 1 := by
    intro p x hx
    rcases List.mem_append.1 hx with hx | hx
    · exact h.once x hx
    · simp only [List.mem_singleton] at hx; subst hx; cases p <;> decide
  have howed : ∀ p q, activations s q + Threads.owed q (s.threads ++ [({ part := p, todo := body p } : Thread)]) =
      started q (s.threads ++ [({ part := p, todo := body p } : Thread)]) := by
    intro p q
    rw [owed_append, started_append, ← h.owed q]
    cases p <;> cases q <;> simp [Thread.owes, body, List.count_cons] <;> omega
  have hk : k ≤ k + 1 := Nat.le_succ k
  rcases h.unfinished with e | e | e | e
  · simp only [Prog.mainStep, e]
    by_cases hs : s.time < stop
    · rw [if_pos hs]
      refine ⟨_, rfl, ⟨h.alive, .inr (.inl rfl), h.fmu.mono hk, h.calls, h.time.trans hk, hargs .one, h.input, h.output, honce .one, howed .one, ?_, ?_, ?_⟩, ?_⟩
      · show started .one (s.threads ++ _) = _
        rw [started_append, ho, e]; simp [Prog.start]
      · show started .two (s.threads ++ _) = _
        rw [started_append, ht, e]; simp [Prog.start]
      · exact ⟨hb.1, .inl hs, fun h => by cases h⟩
      · simp [Prog.pos, Prog.start, e]
    · rw [if_neg hs]
      refine ⟨_, rfl, ⟨h.alive, .inr (.inr (.inr rfl)), h.fmu.mono hk, h.calls, h.time.trans hk, fun p => (h.args p).trans hk, h.input, h.output, h.once, h.owed, ?_, ?_, ?_⟩, ?_⟩
      · rw [ho, e]; simp
      · rw [ht, e]; simp
      · exact ⟨hb.1, .inr (.inr rfl), fun _ => by show s.time = stop; have := hb.1; omega⟩
      · simp [Prog.pos, e]
  · simp only [Prog.mainStep, e]
    have hs : s.time < stop := by rcases hb.2.1 with h | h | h <;> simp_all
    by_cases h2 : Second s.time
    · rw [if_pos ((secondActive_iff s.time).2 h2)]
      refine ⟨_, rfl, ⟨h.alive, .inr (.inr (.inl rfl)), h.fmu.mono hk, h.calls, h.time.trans hk, hargs .two, h.input, h.output, honce .two, howed .two, ?_, ?_, ?_⟩, ?_⟩
      · show started .one (s.threads ++ _) = _
        rw [started_append, ho, e]; simp [Prog.start]
      · show started .two (s.threads ++ _) = _
        rw [started_append, ht, e]; simp [Prog.start, h2]
      · exact ⟨hb.1, .inl hs, fun h => by cases h⟩
      · simp [Prog.pos, Prog.start, e]
    · rw [if_neg fun x => h2 ((secondActive_iff s.time).1 x)]
      refine ⟨_, rfl, ⟨h.alive, .inr (.inr (.inl rfl)), h.fmu.mono hk, h.calls, h.time.trans hk, fun p => (h.args p).trans hk, h.input, h.output, h.once, h.owed, ?_, ?_, ?_⟩, ?_⟩
      · rw [ho, e]; simp
      · rw [ht, e]; simp [h2]
      · exact ⟨hb.1, .inl hs, fun h => by cases h⟩
      · simp [Prog.pos, e]
  · simp only [Prog.mainStep, e]
    have hs : s.time < stop := by rcases hb.2.1 with h | h | h <;> simp_all
    refine ⟨_, rfl, ⟨h.alive, .inl rfl, h.fmu.mono hk, h.calls, by show s.time + 1 ≤ k + 1; have := h.time; omega, fun p => (h.args p).trans hk, h.input, h.output,
      h.once, h.owed, ?_, ?_, ?_⟩, ?_⟩
    · rw [ho, e]; simp
    · rw [ht, e]; simp [before_succ]
    · exact ⟨hs, .inr (.inl rfl), fun h => by cases h⟩
    · simp [Prog.pos, e]; omega
  · exact absurd e hm

theorem Inv.step {stop k : Nat} {s : TProg} (h : Inv stop s k) (hk : 1000 * (k + 1) < 2 ^ 31) (t : Turn) (hm : t = .main → s.main ≠ .terminate) (fuel : Nat) :
    ∃ s', s.step Clocks.model fuel stop t = .ret s' ∧ Inv stop s' (k + 1) ∧ s'.pos = s.pos + if t = .main then 1 else 0 := by
  have stay : Inv stop s (k + 1) := ⟨h.alive, h.unfinished, h.fmu.mono (Nat.le_succ k), h.calls, h.time.trans (Nat.le_succ k), fun p => (h.args p).trans (Nat.le_succ k),
    h.input, h.output, h.once, h.owed, h.one, h.two, h.bound⟩
  cases t with
  | main =>
    obtain ⟨s', e, g, hp⟩ := h.main (hm rfl) fuel
    exact ⟨s', e, g, by simpa using hp⟩
  | thread i =>
    simp only [Prog.step]
    cases hi : s.threads[i]? with
    | none => exact ⟨s, rfl, stay, by simp⟩
    | some th =>
      simp only []
      cases hd : th.todo with
      | nil => exact ⟨s, rfl, stay, by simp⟩
      | cons a rest =>
        obtain ⟨s', e, g, ⟨h1, h2, -⟩, -⟩ := h.thread hk hi hd fuel
        exact ⟨s', e, g, by simp [Prog.pos, h1, h2]⟩

theorem Inv.pos_terminate {stop k : Nat} {s : TProg} (h : Inv stop s k) (hm : s.main = .terminate) : s.pos = 3 * stop + 1 := by
  simp [Prog.pos, hm, h.bound.2.2 hm]

/-- The program runs for any schedule. -/
theorem Inv.run {stop : Nat} {fuel : Nat} : ∀ {turns : List Turn} {k : Nat} {s : TProg}, Inv stop s k → 1000 * (k + turns.length) < 2 ^ 31 →
    s.pos + turns.count .main ≤ 3 * stop + 1 →
    ∃ s', s.run Clocks.model fuel stop turns = .ret s' ∧ Inv stop s' (k + turns.length) ∧ s'.pos = s.pos + turns.count .main
  | [], k, s, h, _, _ => ⟨s, rfl, h, by simp⟩
  | t :: ts, k, s, h, hk, hc => by
    simp only [List.length_cons, List.count_cons, beq_iff_eq] at hk hc ⊢
    obtain ⟨s₁, e, g, hp⟩ := h.step (by omega) t (by
      rintro rfl hm
      rw [h.pos_terminate hm] at hc
      simp at hc) fuel
    obtain ⟨s₂, e₂, g₂, hp₂⟩ := g.run (turns := ts) (fuel := fuel) (by omega) (by omega)
    refine ⟨s₂, ?_, ?_, by omega⟩
    · rw [Prog.run, e]; exact e₂
    · rw [show k + (ts.length + 1) = k + 1 + ts.length by omega]; exact g₂

theorem debug_ok {w : CWorld} (hs : w.inst.ctx.state = .instantiated) (fuel : Nat) :
    FMI3.step Clocks.model fuel w (.setDebugLogging true 1 (some [some "logEvents"])) =
      .ret ({ w with inst := { w.inst with ctx := { w.inst.ctx with logEvents := true } } }, .OK, .unit) := by
  simp only [FMI3.step, FMI3.World.run, FMI3.setDebugLogging]
  have : ∀ {β : Type} (name : String) (stop : β) k, FMI3.begin FMI3.MASK_AnyState name w.inst stop k = k w.inst := by
    intro β name stop k
    unfold FMI3.begin beginFunction FMI3.allowed
    rw [hs, if_pos (by decide)]
  rw [this]
  simp only [callLast, Verif.call, setDebugLogging, setDebugLoggingLoop, Nat.zero_lt_one, if_true, Option.isNone_some, Bool.false_eq_true, if_false, Ptr.read,
    List.getElem?_cons_zero, Outcome.ret_bind]
  rfl

theorem exists_cons {W O V : Type} {call : W → O → Outcome (W × Status × V)} {w w₁ : W} {o : O} {v : V} {os : List O} {P : W → Prop}
    (e : call w o = .ret (w₁, .OK, v)) (h : ∃ w' vs, AllOK call w₁ os w' vs ∧ P w') : ∃ w' vs, AllOK call w (o :: os) w' vs ∧ P w' := by
  obtain ⟨w', vs, a, p⟩ := h
  exact ⟨w', _, .cons e a, p⟩

theorem clock_last {w : CWorld} {n : Part → Nat} {k : Nat} {q : Int} (fuel : Nat) (h : Fmu w n k q) :
    ∃ w' vs, AllOK (FMI3.step Clocks.model fuel) w [.getClock (some [1005]) 1 (some [false])] w' vs ∧ Fmu w' n k q := by
  obtain ⟨w', o, e, f⟩ := h.clock fuel
  exact ⟨w', _, .cons e .nil, f⟩

/-- The beginning of the program. -/
theorem begin_ok (fuel stop : Nat) : ∃ s, begin (Clocks.model : Model XRat _) fuel stop = .ret (some s) ∧ Inv stop s 0 ∧ s.pos = 0 ∧ s.threads = [] ∧
    s.w.inst.mv.data.inClock3_qualifier = 0 ∧ s.qualifier = 0 ∧ s.calls = [] := by
  have : ∃ c l, FMI3.instantiateScheduledExecution (Clocks.model : Model XRat _) (some "instance1") (some (Clocks.model : Model XRat _).token) none true true true true true true = (some c, l) ∧
      ∃ w vs, AllOK (FMI3.step Clocks.model fuel) (.fresh c) [.setDebugLogging true 1 (some [some "logEvents"]), .enterInitializationMode (Arith.lit 0) true (Arith.lit (stop : Rat)),
        .exitInitializationMode, .getClock (some [1005]) 1 (some [false])] w vs ∧ Fmu w (fun _ => 0) 0 0 := by
    refine ⟨_, _, rfl, ?_⟩
    refine exists_cons (debug_ok rfl fuel) ?_
    refine exists_cons (by with_unfolding_all rfl) ?_
    refine exists_cons (by with_unfolding_all rfl) ?_
    refine clock_last fuel ?_
    exact ⟨rfl, rfl, rfl, rfl, rfl, rfl, by decide, ⟨Int.le_refl 0, Int.le_refl 0⟩, ⟨Int.le_refl 0, (by decide : (0 : Int) ≤ 1000)⟩,
      ⟨Int.le_refl 0, (by decide : (0 : Int) ≤ 1000)⟩, rfl⟩
  obtain ⟨c, l, hc, w, vs, ha, h⟩ := this
  unfold begin
  rw [hc]
  simp only []
  rw [ha.calls]
  refine ⟨_, rfl, ⟨rfl, .inl rfl, ?_, by simp, Nat.le_refl _, fun _ => Nat.le_refl _, by simp, by simp, by simp, fun _ => rfl, rfl, rfl, Nat.zero_le _, .inr (.inl rfl), fun h => by cases h⟩, rfl, rfl,
    h.qual, rfl, rfl⟩
  show Fmu w _ 0 w.inst.mv.data.inClock3_qualifier
  rw [h.qual]
  exact h

end Verif.Importer.Threads
