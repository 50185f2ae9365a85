import Verif.Lemmas.ThreadedInv

/-! # The program with threads: inClock3 ticks once if the threads keep pace, for C77 -/

set_option linter.unusedSectionVars false

namespace Verif.Importer.Threads
open Verif Importer.CoSim Importer.Sync Clocks

/-- Only the thread `i` has something left to do. -/
def Lone (ths : List Thread) (i : Nat) (todo : List Todo) : Prop :=
  (∃ th, ths[i]? = some th ∧ th.part = .one ∧ th.todo = todo) ∧ ∀ j th, j ≠ i → ths[j]? = some th → th.todo = []

/-- The thread of inClock1 in the second 4, until it starts the thread of inClock3. -/
def Announcing (s : TProg) (todo : List Todo) : Prop :=
  (todo = body .one ∧ s.fq ≠ 2 ∧ activations s .one = 4) ∨
  (activations s .one = 5 ∧
    ((s.fq = 2 ∧ (todo = [.clearClock, .askClock, .keepClock, .clearInterval, .askInterval, .keepInterval, .getOutputs] ∨
        todo = [.askClock, .keepClock, .clearInterval, .askInterval, .keepInterval, .getOutputs] ∨
        todo = [.keepClock, .clearInterval, .askInterval, .keepInterval, .getOutputs] ∨ todo = [.clearInterval, .askInterval, .keepInterval, .getOutputs] ∨
        todo = [.askInterval, .keepInterval, .getOutputs])) ∨
      (s.fq ≠ 2 ∧ s.qualifier = 2 ∧ (todo = [.keepInterval, .getOutputs] ∨ todo = [.testInterval, .getOutputs])) ∨
      (s.fq ≠ 2 ∧ todo = [.startThird, .getOutputs])))

/-- The thread clears `countdownClocksQualifier` before it looks at it. -/
def safe : List Todo → Bool
  | [] => true
  | .clearInterval :: _ => true
  | .keepInterval :: _ => false
  | .testInterval :: _ => false
  | _ :: l => safe l

inductive Phase (s : TProg) : Prop
  | before (h1 : started .one s.threads ≤ 4) (h2 : s.fq ≠ 2) (h3 : s.qualifier ≠ 2) (h4 : started .three s.threads = 0)
      (h5 : ∀ th ∈ s.threads, .startThird ∉ th.todo)
  | during (i : Nat) (todo : List Todo) (h1 : started .one s.threads = 5) (h2 : Lone s.threads i todo) (h3 : Announcing s todo)
      (h4 : started .three s.threads = 0)
  | after (h1 : 5 ≤ activations s .one) (h2 : s.fq ≠ 2) (h3 : started .three s.threads = 1)
      (h4 : ∀ th ∈ s.threads, .startThird ∉ th.todo ∧ (s.qualifier = 2 → safe th.todo = true))

theorem lone_set {ths : List Thread} {i : Nat} {todo : List Todo} (h : Lone ths i todo) {th' : Thread} (hp : th'.part = .one) :
    Lone (ths.set i th') i th'.todo := by
  obtain ⟨⟨th, h1, h2, h3⟩, h4⟩ := h
  refine ⟨⟨th', ?_, hp, rfl⟩, fun j x hj hx => h4 j x hj ?_⟩
  · rw [List.getElem?_set_self]
    exact (List.getElem?_eq_some_iff.1 h1).1
  · rwa [List.getElem?_set_ne (Ne.symm hj)] at hx

theorem mem_set_or {ths : List Thread} {i : Nat} {th' x : Thread} (hx : x ∈ ths.set i th') : x ∈ ths ∨ x = th' := List.mem_or_eq_of_mem_set hx

theorem started_pos {p : Part} {ths : List Thread} {th : Thread} (h : th ∈ ths) (hp : th.part = p) : 0 < started p ths :=
  List.countP_pos_iff.2 ⟨th, h, by simp [hp]⟩

theorem owed_pos {p : Part} : ∀ {ths : List Thread} {th : Thread}, th ∈ ths → th.part = p → .activate ∈ th.todo → 0 < owed p ths
  | x :: xs, th, h, hp, ha => by
    simp only [owed, List.map_cons, List.sum_cons]
    rcases List.mem_cons.1 h with rfl | h
    · have : 0 < th.todo.count .activate := List.count_pos_iff.2 ha
      simp only [Thread.owes, hp, if_true]
      omega
    · have := owed_pos h hp ha
      simp only [owed] at this
      omega

/-- The argument of the threads of inClock1 is the second in which the last one was started. -/
def LastArg (s : TProg) : Prop := 0 < started .one s.threads → s.args .one + 1 = started .one s.threads

theorem Phase.thread {stop k : Nat} {s : TProg} (h : Inv stop s k) (hl : LastArg s) (hp : Phase s) (hk : 1000 * (k + 1) < 2 ^ 31) {i : Nat} {th : Thread}
    {a : Todo} {rest : List Todo} (hi : s.threads[i]? = some th) (hd : th.todo = a :: rest) (fuel : Nat) :
    ∃ s', s.exec Clocks.model fuel i th a rest = .ret s' ∧ Inv stop s' (k + 1) ∧ (s'.time = s.time ∧ s'.main = s.main) ∧ LastArg s' ∧ Phase s' := by
  obtain ⟨s', e, g, ⟨g1, g2, g3⟩, th', hp', hth, hef, hac⟩ := h.thread hk hi hd fuel
  have hmem : th ∈ s.threads := List.mem_of_getElem? hi
  refine ⟨s', e, g, ⟨g1, g2⟩, ?_, ?_⟩
  · unfold LastArg
    rw [hth, g3]
    by_cases ha : a = .startThird
    · rw [if_pos ha, started_append, started_set _ hi hp']; exact hl
    · rw [if_neg ha, List.append_nil, started_set _ hi hp']; exact hl
  · have hst : a ≠ .startThird → ∀ p, started p s'.threads = started p s.threads := by
      intro ha p; rw [hth, if_neg ha, List.append_nil, started_set _ hi hp']
    cases hp with
    | before h1 h2 h3 h4 h5 =>
      have hn := h5 th hmem
      rw [hd] at hn
      simp only [List.mem_cons, not_or] at hn
      have ha : a ≠ .startThird := fun x => hn.1 x.symm
      have hargs : th.part = .one → s.args .one ≠ 4 := by
        intro hp h4
        have := hl (started_pos hmem hp)
        omega
      have key : s'.fq ≠ 2 ∧ s'.qualifier ≠ 2 ∧ .startThird ∉ th'.todo := by
        cases a <;> simp only [Effect] at hef
        case activate =>
          obtain ⟨e1, e2, e3, -⟩ := hef
          refine ⟨?_, by rw [e2]; exact h3, ?_⟩
          · rw [e1, if_neg fun x => hargs x.1 x.2]; exact h2
          · rcases e3 with e3 | e3 <;> rw [e3]
            · exact hn.2
            · simp [callback, hn.2]
        case askInterval =>
          obtain ⟨e1, e2, e3⟩ := hef
          rw [if_neg h2] at e1
          exact ⟨e1 ▸ h2, e2 ▸ h2, e3 ▸ hn.2⟩
        case keepInterval =>
          obtain ⟨e1, e2, e3, -⟩ := hef
          refine ⟨e1 ▸ h2, e2 ▸ h3, ?_⟩
          rcases e3 with e3 | e3 <;> rw [e3]
          · exact hn.2
          · simp [hn.2]
        case testInterval =>
          obtain ⟨e1, e2, e3⟩ := hef
          rw [if_neg h3] at e3
          exact ⟨e1 ▸ h2, e2 ▸ h3, e3 ▸ hn.2⟩
        case clearInterval =>
          obtain ⟨e1, e2, e3⟩ := hef
          exact ⟨e1 ▸ h2, by rw [e2]; decide, e3 ▸ hn.2⟩
        all_goals exact ⟨hef.1 ▸ h2, hef.2.1 ▸ h3, hef.2.2 ▸ hn.2⟩
      refine .before (by rw [hst ha]; exact h1) key.1 key.2.1 (by rw [hst ha]; exact h4) ?_
      intro x hx
      rw [hth, if_neg ha, List.append_nil] at hx
      rcases mem_set_or hx with hx | rfl
      · exact h5 x hx
      · exact key.2.2
    | during j todo h1 h2 h3 h4 =>
      have hij : i = j := by
        by_cases x : i = j
        · exact x
        · have := h2.2 i th x hi; rw [hd] at this; cases this
      subst hij
      obtain ⟨⟨y, hy, hy1, hy2⟩, hoth⟩ := id h2
      obtain rfl : y = th := Option.some.inj (hy.symm.trans hi)
      have hargs : s.args .one = 4 := by have := hl (by omega); omega
      have hne : a ≠ .startThird → Lone s'.threads i th'.todo := by
        intro ha
        rw [hth, if_neg ha, List.append_nil]
        exact lone_set h2 (hp'.trans hy1)
      rw [hd] at hy2
      have mk : a ≠ .startThird → Announcing s' th'.todo → Phase s' := fun ha hn =>
        .during i th'.todo (by rw [hst ha]; exact h1) (hne ha) hn (by rw [hst ha]; exact h4)
      rcases h3 with ⟨e0, e1, e2⟩ | ⟨ea, ⟨e1, e0 | e0 | e0 | e0 | e0⟩ | ⟨e1, e2, e0 | e0⟩ | ⟨e1, e0⟩⟩
      · rw [e0] at hy2; cases hy2
        simp only [Effect] at hef
        refine mk (by decide) (.inr ⟨?_, .inl ⟨?_, .inl ?_⟩⟩)
        · rw [hac, if_pos rfl, hy1]; simp [bump, e2]
        · rw [hef.1, if_pos ⟨hy1, hargs⟩]
        · rw [hef.2.2.2 hy1 hargs]; rfl
      · rw [e0] at hy2; cases hy2
        simp only [Effect] at hef
        exact mk (by decide) (.inr ⟨by rw [hac, if_neg (by decide)]; exact ea, .inl ⟨hef.1.trans e1, .inr (.inl hef.2.2)⟩⟩)
      · rw [e0] at hy2; cases hy2
        simp only [Effect] at hef
        exact mk (by decide) (.inr ⟨by rw [hac, if_neg (by decide)]; exact ea, .inl ⟨hef.1.trans e1, .inr (.inr (.inl hef.2.2))⟩⟩)
      · rw [e0] at hy2; cases hy2
        simp only [Effect] at hef
        exact mk (by decide) (.inr ⟨by rw [hac, if_neg (by decide)]; exact ea, .inl ⟨hef.1.trans e1, .inr (.inr (.inr (.inl hef.2.2)))⟩⟩)
      · rw [e0] at hy2; cases hy2
        simp only [Effect] at hef
        exact mk (by decide) (.inr ⟨by rw [hac, if_neg (by decide)]; exact ea, .inl ⟨hef.1.trans e1, .inr (.inr (.inr (.inr hef.2.2)))⟩⟩)
      · rw [e0] at hy2; cases hy2
        simp only [Effect] at hef
        exact mk (by decide) (.inr ⟨by rw [hac, if_neg (by decide)]; exact ea, .inr (.inl ⟨by rw [hef.1, if_pos e1]; decide, hef.2.1.trans e1, .inl hef.2.2⟩)⟩)
      · rw [e0] at hy2; cases hy2
        simp only [Effect] at hef
        exact mk (by decide) (.inr ⟨by rw [hac, if_neg (by decide)]; exact ea, .inr (.inl ⟨hef.1 ▸ e1, hef.2.1.trans e2, .inr (hef.2.2.2 e2)⟩)⟩)
      · rw [e0] at hy2; cases hy2
        simp only [Effect] at hef
        exact mk (by decide) (.inr ⟨by rw [hac, if_neg (by decide)]; exact ea, .inr (.inr ⟨hef.1 ▸ e1, by rw [hef.2.2, if_pos e2]⟩)⟩)
      · rw [e0] at hy2; cases hy2
        simp only [Effect] at hef
        refine .after (by rw [hac, if_neg (by decide)]; exact Nat.le_of_eq ea.symm) (hef.1 ▸ e1) ?_ ?_
        · rw [hth, if_pos rfl, started_append, started_set _ hi hp', h4]; rfl
        · intro x hx
          rw [hth, if_pos rfl] at hx
          rcases List.mem_append.1 hx with hx | hx
          · obtain ⟨n, hn⟩ := List.mem_iff_getElem?.1 hx
            have hl' := lone_set h2 (hp'.trans hy1)
            by_cases hni : n = i
            · subst hni
              obtain ⟨⟨z, hz, -, hz2⟩, -⟩ := hl'
              obtain rfl : z = x := Option.some.inj (hz.symm.trans hn)
              rw [hz2, hef.2.2]
              exact ⟨by decide, fun _ => rfl⟩
            · rw [hl'.2 n x hni hn]
              exact ⟨by simp, fun _ => rfl⟩
          · simp only [List.mem_singleton] at hx
            subst hx
            exact ⟨by decide, fun _ => rfl⟩
    | after h1 h2 h3 h4 =>
      obtain ⟨hn, hs⟩ := h4 th hmem
      rw [hd] at hn hs
      simp only [List.mem_cons, not_or] at hn
      have ha : a ≠ .startThird := fun x => hn.1 x.symm
      have hargs : a = .activate → th.part = .one → s.args .one ≠ 4 := by
        rintro rfl hp h4
        have i1 := hl (started_pos hmem hp)
        have i2 := owed_pos hmem hp (by simp [hd])
        have i3 := h.owed .one
        omega
      have h1' : 5 ≤ activations s' .one := by
        rw [hac]; split
        · simp only [bump]; omega
        · exact h1
      have key : s'.fq ≠ 2 ∧ (s'.qualifier = 2 → s.qualifier = 2) ∧ .startThird ∉ th'.todo ∧ (s'.qualifier = 2 → safe th'.todo = true) := by
        cases a <;> simp only [Effect] at hef
        case activate =>
          obtain ⟨e1, e2, e3, -⟩ := hef
          refine ⟨?_, by rw [e2]; exact id, ?_, ?_⟩
          · rw [e1, if_neg fun x => hargs rfl x.1 x.2]; exact h2
          · rcases e3 with e3 | e3 <;> rw [e3]
            · exact hn.2
            · simp [callback, hn.2]
          · intro hq
            rcases e3 with e3 | e3 <;> rw [e3]
            · exact hs (e2 ▸ hq)
            · rfl
        case askInterval =>
          obtain ⟨e1, e2, e3⟩ := hef
          rw [if_neg h2] at e1
          exact ⟨e1 ▸ h2, fun x => absurd (e2 ▸ x) h2, e3 ▸ hn.2, fun x => absurd (e2 ▸ x) h2⟩
        case keepInterval =>
          obtain ⟨e1, e2, e3, -⟩ := hef
          refine ⟨e1 ▸ h2, by rw [e2]; exact id, ?_, ?_⟩
          · rcases e3 with e3 | e3 <;> rw [e3]
            · exact hn.2
            · simp [hn.2]
          · intro hq
            have := hs (e2 ▸ hq)
            simp [safe] at this
        case testInterval =>
          obtain ⟨e1, e2, e3⟩ := hef
          have hq : s.qualifier ≠ 2 := by
            intro hq
            have := hs hq
            simp [safe] at this
          rw [if_neg hq] at e3
          exact ⟨e1 ▸ h2, by rw [e2]; exact id, e3 ▸ hn.2, fun x => absurd (e2 ▸ x) hq⟩
        case clearInterval =>
          obtain ⟨e1, e2, e3⟩ := hef
          exact ⟨e1 ▸ h2, (fun x => by rw [e2] at x; cases x), e3 ▸ hn.2, (fun x => by rw [e2] at x; cases x)⟩
        case startThird => exact absurd rfl ha
        all_goals
          refine ⟨hef.1 ▸ h2, by rw [hef.2.1]; exact id, hef.2.2 ▸ hn.2, fun x => ?_⟩
          rw [hef.2.2]
          exact hs (hef.2.1 ▸ x)
      refine .after h1' key.1 (by rw [hst ha]; exact h3) ?_
      intro x hx
      rw [hth, if_neg ha, List.append_nil] at hx
      rcases mem_set_or hx with hx | rfl
      · exact ⟨(h4 x hx).1, fun hq => (h4 x hx).2 (key.2.1 hq)⟩
      · exact key.2.2

theorem Phase.main {stop k : Nat} {s : TProg} (h : Inv stop s k) (hl : LastArg s) (hp : Phase s) (hm : s.main ≠ .terminate) (hidle : s.main = .first → Idle s) (fuel : Nat) :
    ∃ s', s.mainStep Clocks.model fuel stop = .ret s' ∧ Inv stop s' (k + 1) ∧ s'.pos = s.pos + 1 ∧ LastArg s' ∧ Phase s' := by
  obtain ⟨s', e, g, hpos⟩ := h.main hm fuel
  refine ⟨s', e, g, hpos, ?_⟩
  -- a thread of inClock1 or inClock2 is added
  have add : ∀ p, p ≠ Part.three → (p = .one → Idle s) → (p = .two → s.time ≠ 4 ∧ s.main = .second) → ∀ s₁ : TProg, s₁.threads = s.threads ++ [{ part := p, todo := body p }] → s₁.w = s.w →
      s₁.qualifier = s.qualifier → s₁.calls = s.calls → Phase s₁ := by
    intro p hp3 hid h4 s₁ ht hw hq hc
    have hac : activations s₁ = activations s := by funext p; simp [activations, hc]
    have hf : s₁.fq = s.fq := by simp [Prog.fq, hw]
    have hst3 : started .three s₁.threads = started .three s.threads := by rw [ht, started_append]; simp [hp3]
    have hno : .startThird ∉ body p := by cases p <;> decide
    have hsafe : safe (body p) = true := by cases p <;> rfl
    cases hp with
    | before h1 h2 h3 h7 h5 =>
      have ho := h.one
      by_cases hlast : p = .one ∧ started .one s.threads = 4
      · obtain ⟨rfl, h6⟩ := hlast
        have hid := hid rfl
        refine .during s.threads.length (body .one) (by rw [ht, started_append, h6]; rfl) ?_ (.inl ⟨rfl, hf ▸ h2, ?_⟩) (hst3 ▸ h7)
        · rw [ht]
          refine ⟨⟨⟨.one, body .one, false⟩, by simp, rfl, rfl⟩, fun j x hj hx => ?_⟩
          by_cases hjl : j < s.threads.length
          · rw [List.getElem?_append_left hjl] at hx
            exact hid x (List.mem_of_getElem? hx)
          · rw [List.getElem?_eq_none (by simp; omega)] at hx
            cases hx
        · rw [hac]
          have := h.owed .one
          rw [owed_idle hid] at this
          omega
      · refine .before ?_ (hf ▸ h2) (hq ▸ h3) (hst3 ▸ h7) ?_
        · rw [ht, started_append]
          by_cases hp1 : p = .one
          · have : started .one s.threads ≠ 4 := fun x => hlast ⟨hp1, x⟩
            simp only [hp1, if_true]; omega
          · simp only [hp1, if_false]; omega
        · intro x hx
          rw [ht] at hx
          rcases List.mem_append.1 hx with hx | hx
          · exact h5 x hx
          · simp only [List.mem_singleton] at hx; subst hx; exact hno
    | during i todo h1 h2 h3 h5 =>
      exfalso
      cases p with
      | one =>
        obtain ⟨⟨th, hth, -, htd⟩, -⟩ := h2
        have := hid rfl th (List.mem_of_getElem? hth)
        rw [htd] at this
        subst this
        simp [Announcing, body] at h3
      | two =>
        have := h.one
        rw [h1, (h4 rfl).2] at this
        simp at this
        have := (h4 rfl).1
        omega
      | three => exact hp3 rfl
    | after h1 h2 h3 h5 =>
      refine .after (hac ▸ h1) (hf ▸ h2) (hst3 ▸ h3) ?_
      intro x hx
      rw [ht] at hx
      rcases List.mem_append.1 hx with hx | hx
      · exact hq ▸ h5 x hx
      · simp only [List.mem_singleton] at hx; subst hx; exact ⟨hno, fun _ => hsafe⟩
  -- nothing is added
  have keep : ∀ s₁ : TProg, s₁.threads = s.threads → s₁.w = s.w → s₁.qualifier = s.qualifier → s₁.calls = s.calls → Phase s₁ := by
    intro s₁ ht hw hq hc
    have hac : activations s₁ = activations s := by funext p; simp [activations, hc]
    have hf : s₁.fq = s.fq := by simp [Prog.fq, hw]
    cases hp with
    | before h1 h2 h3 h4 h5 => exact .before (ht ▸ h1) (hf ▸ h2) (hq ▸ h3) (ht ▸ h4) (ht ▸ h5)
    | during i todo h1 h2 h3 h5 =>
      refine .during i todo (ht ▸ h1) (ht ▸ h2) ?_ (ht ▸ h5)
      unfold Announcing at h3 ⊢
      rw [hac, hf, hq]; exact h3
    | after h1 h2 h3 h5 => exact .after (hac ▸ h1) (hf ▸ h2) (ht ▸ h3) (by rw [ht, hq]; exact h5)
  rcases h.unfinished with x | x | x | x
  · simp only [Prog.mainStep, x] at e
    by_cases hs : s.time < stop
    · rw [if_pos hs] at e
      cases e
      refine ⟨fun _ => ?_, add .one (by decide) (fun _ => hidle x) (fun h => by cases h) _ rfl rfl rfl rfl⟩
      have := g.one
      simp only [true_or, if_true] at this
      rw [this]
      rfl
    · rw [if_neg hs] at e
      cases e
      exact ⟨hl, keep _ rfl rfl rfl rfl⟩
  · simp only [Prog.mainStep, x] at e
    by_cases h2 : Second s.time
    · rw [if_pos ((secondActive_iff s.time).2 h2)] at e
      cases e
      refine ⟨?_, add .two (by decide) (fun h => by cases h) (fun _ => ⟨?_, x⟩) _ rfl rfl rfl rfl⟩
      · unfold LastArg
        show 0 < started .one (s.threads ++ _) → _ = started .one (s.threads ++ _)
        rw [started_append]; exact hl
      · intro h4; rw [h4] at h2; revert h2; decide
    · rw [if_neg fun x => h2 ((secondActive_iff s.time).1 x)] at e
      cases e
      exact ⟨hl, keep _ rfl rfl rfl rfl⟩
  · simp only [Prog.mainStep, x] at e
    cases e
    exact ⟨hl, keep _ rfl rfl rfl rfl⟩
  · exact absurd x hm

theorem run_snoc (fuel stop : Nat) (t : Turn) : ∀ (turns : List Turn) (s : TProg),
    s.run Clocks.model fuel stop (turns ++ [t]) = s.run Clocks.model fuel stop turns >>- fun s' => s'.step Clocks.model fuel stop t
  | [], s => by
    simp only [List.nil_append, Prog.run, Outcome.ret_bind]
    cases s.step Clocks.model fuel stop t <;> rfl
  | u :: us, s => by
    simp only [List.cons_append, Prog.run]
    rw [Outcome.bind_assoc]
    congr 1
    funext s'
    exact run_snoc fuel stop t us s'

/-- The phases under a schedule in which the threads keep pace. -/
theorem Phase.run {fuel stop : Nat} {s₀ : TProg} (h₀ : Inv stop s₀ 0) (hl₀ : LastArg s₀) (hp₀ : Phase s₀) (hz : s₀.pos = 0) :
    ∀ (n : Nat) (turns : List Turn), turns.length = n → 1000 * turns.length < 2 ^ 31 → turns.count .main ≤ 3 * stop + 1 → Paced fuel stop s₀ turns →
    ∃ s, s₀.run Clocks.model fuel stop turns = .ret s ∧ Inv stop s turns.length ∧ s.pos = turns.count .main ∧ LastArg s ∧ Phase s
  | 0, turns, hn, _, _, _ => by
    obtain rfl : turns = [] := List.length_eq_zero_iff.1 hn
    exact ⟨s₀, rfl, h₀, hz, hl₀, hp₀⟩
  | n + 1, turns, hn, hk, hc, hpace => by
    rcases List.eq_nil_or_concat turns with rfl | ⟨us, t, rfl⟩
    · cases hn
    rw [List.concat_eq_append] at *
    simp only [List.length_append, List.length_singleton, List.count_append, List.count_singleton] at hn hk hc ⊢
    obtain ⟨s, e, g, hpos, hl, hp⟩ := Phase.run h₀ hl₀ hp₀ hz n us (by omega) (by omega) (by omega)
      (fun d r hd => hpace d (r ++ [t]) (by rw [hd]; simp))
    have stay : Inv stop s (us.length + 1) := ⟨g.alive, g.unfinished, g.fmu.mono (Nat.le_succ _), g.calls, g.time.trans (Nat.le_succ _),
      fun p => (g.args p).trans (Nat.le_succ _), g.input, g.output, g.once, g.owed, g.one, g.two, g.bound⟩
    cases t with
    | main =>
      simp only [beq_self_eq_true, if_true] at hc ⊢
      obtain ⟨s', e', g', hpos', hl', hp'⟩ := hp.main g hl (fun hm => by have := g.pos_terminate hm; omega) (by
        intro hm
        refine hpace us [] (by simp) ?_ s e
        rw [← hpos]
        simp [Prog.pos, hm]) fuel
      refine ⟨s', ?_, g', by omega, hl', hp'⟩
      rw [run_snoc, e, Outcome.ret_bind]; exact e'
    | thread i =>
      have hnm : ((Turn.thread i == Turn.main) = true) = False := by simp
      simp only [hnm, if_false, Nat.add_zero] at hc ⊢
      have hrun : ∀ s', s.step Clocks.model fuel stop (.thread i) = .ret s' → s₀.run Clocks.model fuel stop (us ++ [.thread i]) = .ret s' := by
        intro s' x
        rw [run_snoc, e, Outcome.ret_bind]; exact x
      cases hi : s.threads[i]? with
      | none => exact ⟨s, hrun s (by simp only [Prog.step, hi]), stay, hpos, hl, hp⟩
      | some th =>
        cases hd : th.todo with
        | nil => exact ⟨s, hrun s (by simp only [Prog.step, hi, hd]), stay, hpos, hl, hp⟩
        | cons a rest =>
          obtain ⟨s', e', g', ⟨h1, h2⟩, hl', hp'⟩ := hp.thread g hl (by omega) hi hd fuel
          exact ⟨s', hrun s' (by simp only [Prog.step, hi, hd]; exact e'), g', by simp only [Prog.pos, h1, h2]; exact hpos, hl', hp'⟩

theorem ticksBefore_four : ∀ t, ticksBefore (· = 4) t = if t < 5 then 0 else 1
  | 0 => rfl
  | t + 1 => by
    have := ticksBefore_four t
    rw [show ticksBefore (· = 4) (t + 1) = ticksBefore (· = 4) t + if t = 4 then 1 else 0 from before_succ _ t, this]
    split <;> split <;> split <;> omega

/-- After the end of the main program, and of all threads, nothing happens any more. -/
theorem run_done {fuel stop : Nat} {s : TProg} (hm : s.main = .done) (hi : Idle s) : ∀ turns, s.run Clocks.model fuel stop turns = .ret s
  | [] => rfl
  | .main :: ts => by
    rw [Prog.run, Prog.step, Prog.mainStep, hm]
    exact run_done hm hi ts
  | .thread i :: ts => by
    rw [Prog.run]
    have : s.step Clocks.model fuel stop (.thread i) = .ret s := by
      simp only [Prog.step]
      cases h : s.threads[i]? with
      | none => rfl
      | some th => simp only [hi th (List.mem_of_getElem? h)]
    rw [this]
    exact run_done hm hi ts

theorem run_append (fuel stop : Nat) : ∀ (as bs : List Turn) (s : TProg),
    s.run Clocks.model fuel stop (as ++ bs) = s.run Clocks.model fuel stop as >>- fun s' => s'.run Clocks.model fuel stop bs
  | [], _, _ => by simp [Prog.run]
  | a :: as, bs, s => by
    simp only [List.cons_append, Prog.run]
    rw [Outcome.bind_assoc]
    congr 1
    funext s'
    exact run_append fuel stop as bs s'

/-- The end of the program. -/
theorem Inv.finish {stop k fuel : Nat} {s : TProg} (h : Inv stop s k) (hp : s.pos = 3 * stop) (hi : Idle s) :
    ∃ s', s'.alive = false ∧ ∀ more, s.run Clocks.model fuel stop (.main :: .main :: .main :: more) = .ret s' := by
  have hb := h.bound
  have hm : s.main = .first ∧ s.time = stop := by
    unfold Prog.pos at hp
    rcases h.unfinished with x | x | x | x <;> rw [x] at hp hb <;> simp at hp hb <;> first | exact ⟨x, by omega⟩ | omega
  have ht : ∃ w st o, FMI3.step Clocks.model fuel s.w .terminate = .ret (w, st, o) := by
    simp only [FMI3.step, FMI3.World.run, FMI3.terminate]
    rw [begin_any h.fmu.state (by decide)]
    exact ⟨_, _, _, rfl⟩
  obtain ⟨w, st, o, ht⟩ := ht
  refine ⟨{ s with w := w, alive := false, main := .done }, rfl, fun more => ?_⟩
  simp only [Prog.run, Prog.step, Prog.mainStep, hm.1, hm.2, Nat.lt_irrefl, if_false, Outcome.ret_bind, ht]
  exact run_done (s := { s with w := w, alive := false, main := .done, time := stop }) rfl hi more

end Verif.Importer.Threads
