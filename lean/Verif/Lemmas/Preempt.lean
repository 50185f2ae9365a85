import Verif.Preempt

/-!
# Invariant of the preemptive scheduling of Clocks

Each frame still owes the increments in the rest of its code; the counters and what the frames owe add up.
-/

set_option linter.unusedSectionVars false

namespace Verif.Clocks
variable {F : Type} [Arith F]

/-- The counters. -/
def Var.counter : Var → Bool
  | .ticks1 | .ticks2 | .ticks3 | .total => true
  | _ => false

/-- The register used to increment a counter. -/
def Var.reg : Var → Reg
  | .total => .tot
  | _ => .own

def Instr.isIncr (v : Var) : Instr → Bool
  | .incr v' _ => decide (v' = v)
  | _ => false

/-- The increments of `v` in a list of instructions. -/
def owed (v : Var) (l : List Instr) : Nat := l.countP (Instr.isIncr v)

/-- The value of `v` has been read and will be written. -/
def pend (v : Var) (l : List Instr) : Bool := decide (.incr v v.reg ∈ l) && decide (.load v.reg v ∉ l)

/-- Between lock and unlock. -/
def crit (l : List Instr) : Bool := decide (.unlock ∈ l) && decide (.lock ∉ l)

def counters : List Var := [.ticks1, .ticks2, .ticks3, .total]

theorem Var.mem_counters {v : Var} : v ∈ counters ↔ v.counter = true := by cases v <;> decide

def codes : Part → List (List Instr)
  | .one => [code1 none, code1 (some 4), code1 (some 0)]
  | .two => [code2]
  | .three => [code3]

def sufs : List Instr → List (List Instr)
  | [] => [[]]
  | i :: l => (i :: l) :: sufs l

theorem self_sufs (l : List Instr) : l ∈ sufs l := by cases l <;> simp [sufs]

theorem tail_sufs {i : Instr} {l L : List Instr} (h : i :: l ∈ sufs L) : l ∈ sufs L := by
  induction L with
  | nil => simp [sufs] at h
  | cons j L ih =>
    simp only [sufs, List.mem_cons] at h ⊢
    rcases h with h | h
    · cases h; exact .inr (self_sufs _)
    · exact .inr (ih h)

/-- The rests of the code of a partition. -/
def rests (p : Part) : List (List Instr) := (codes p).flatMap sufs

theorem rests_tail {p : Part} {i : Instr} {l : List Instr} (h : i :: l ∈ rests p) : l ∈ rests p := by
  simp only [rests, List.mem_flatMap] at h ⊢
  obtain ⟨L, h1, h2⟩ := h
  exact ⟨L, h1, tail_sufs h2⟩

theorem code_mem (p : Part) (t : F) : p.code t ∈ codes p := by
  cases p
  · simp only [Part.code, codes]
    rcases Arith.toInt t with _ | it
    · simp
    · by_cases h : it = 4
      · simp [h]
      · have : code1 (some it) = code1 (some 0) := by simp [code1, h]
        simp [this]
  · simp [Part.code, codes]
  · simp [Part.code, codes]

theorem code_rests (p : Part) (t : F) : p.code t ∈ rests p := by
  simp only [rests, List.mem_flatMap]
  exact ⟨_, code_mem p t, self_sufs _⟩

/-- What the instruction at the beginning of a rest may be. -/
def Instr.fits (p : Part) (l : List Instr) : Instr → Bool
  | .load r v => decide ((r = .own → v = p.ticks) ∧ (r = .tot → v = .total))
  | .incr v r => v.counter && decide (r = v.reg) && decide (.load r v ∉ l) && decide (owed v l = 0) &&
      decide (v = .total ∨ v = p.ticks)
  | .add v _ _ | .const v _ => !v.counter
  | .lock => crit l
  | .unlock => !crit l && decide (Instr.lock ∉ l)
  | _ => true

def check (p : Part) (l : List Instr) : Bool :=
  (!pend .total l || decide (p = .one) || crit l) &&
  counters.all (fun v => !decide (Instr.incr v v.reg ∈ l) || decide (v = .total) || decide (v = p.ticks)) &&
  (match l with
    | [] => true
    | i :: l => i.fits p l)

theorem check_rests {p : Part} {l : List Instr} (h : l ∈ rests p) : check p l = true := by
  have : ∀ p ∈ [Part.one, .two, .three], ∀ l ∈ rests p, check p l = true := by decide
  exact this p (by cases p <;> simp) l h

def Instr.plain : Instr → Bool
  | .lock | .unlock => false
  | _ => true

theorem crit_cons {i : Instr} {l : List Instr} (h : i.plain = true) : crit (i :: l) = crit l := by
  cases i <;> simp [Instr.plain, crit] at *

theorem check_code (p : Part) (t : F) :
    crit (p.code t) = false ∧ (∀ v ∈ counters, pend v (p.code t) = false) ∧
    ∀ v ∈ counters, owed v (p.code t) = if v = .total ∨ v = p.ticks then 1 else 0 := by
  have : ∀ p ∈ [Part.one, .two, .three], ∀ l ∈ codes p, crit l = false ∧ (∀ v ∈ counters, pend v l = false) ∧
    ∀ v ∈ counters, owed v l = if v = .total ∨ v = p.ticks then 1 else 0 := by decide
  exact this p (by cases p <;> simp) _ (code_mem p t)

@[simp] theorem get_put (d : Data F) (v w : Var) (x : Int) : (d.put v x).get w = if w = v then x else d.get w := by
  cases v <;> cases w <;> rfl

/-- What an instruction does to the counters and the registers. -/
theorem exec_counters {ctx : Ctx F} {i : Instr} {g g' : Regs} {mv mv' : MV F (Data F)} (e : i.exec ctx g mv = .ret (g', mv'))
    {p : Part} {l : List Instr} (hf : i.fits p l = true) {v : Var} (hv : v.counter = true) :
    mv'.data.get v = (if i.isIncr v then g v.reg + 1 else mv.data.get v) ∧
    ∀ r, g' r = (match i with
      | .load r' w => if r = r' then mv.data.get w else g r
      | _ => g r) := by
  have key : ∀ {x y : Int}, toInt32 x = .ret y → y = x := by
    intro x y h; unfold toInt32 at h; split at h <;> cases h; rfl
  have cu : ∀ {mv mv' : MV F (Data F)}, callClockUpdate ctx mv = .ret mv' → mv'.data = mv.data := by
    intro mv mv' h; unfold callClockUpdate at h; split at h <;> cases h; rfl
  cases i <;> simp only [Instr.exec] at e
  case load r w => cases e; exact ⟨by simp [Instr.isIncr], fun r => rfl⟩
  case incr w r =>
    obtain ⟨x, e1, e2⟩ := Outcome.bind_eq_ret.1 e
    cases e2
    simp only [Instr.fits, Bool.and_eq_true, decide_eq_true_eq] at hf
    refine ⟨?_, fun _ => rfl⟩
    rw [key e1]
    by_cases h : v = w
    · subst h; simp [Instr.isIncr, hf.1.1.1.2]
    · have h' : ¬ w = v := fun h' => h h'.symm
      simp [Instr.isIncr, h, h']
  case add w r r' =>
    obtain ⟨x, e1, e2⟩ := Outcome.bind_eq_ret.1 e
    cases e2
    refine ⟨?_, fun _ => rfl⟩
    have : v ≠ w := by rintro rfl; simp [Instr.fits, hv] at hf
    simp [Instr.isIncr, this]
  case const w x =>
    cases e
    refine ⟨?_, fun _ => rfl⟩
    have : v ≠ w := by rintro rfl; simp [Instr.fits, hv] at hf
    simp [Instr.isIncr, this]
  case interval => cases e; exact ⟨by cases v <;> rfl, fun _ => rfl⟩
  case tick o t =>
    cases e
    refine ⟨?_, fun _ => rfl⟩
    have : v ≠ .outClock := by rintro rfl; cases hv
    simp [Instr.isIncr, this]
  case lock => cases e; refine ⟨?_, fun _ => rfl⟩; unfold callLock emit; split <;> rfl
  case unlock => cases e; refine ⟨?_, fun _ => rfl⟩; unfold callUnlock emit; split <;> rfl
  case trap => cases e
  case notify q o =>
    obtain ⟨x, e1, e2⟩ := Outcome.bind_eq_ret.1 e
    cases e2
    refine ⟨?_, fun _ => rfl⟩
    simp only [Instr.isIncr, Bool.false_eq_true, if_false]
    split at e1
    · rw [cu e1]
    · cases e1; rfl
  case notifyOut o =>
    obtain ⟨x, e1, e2⟩ := Outcome.bind_eq_ret.1 e
    cases e2
    refine ⟨?_, fun _ => rfl⟩
    simp only [Instr.isIncr, Bool.false_eq_true, if_false]
    split at e1
    · rw [cu e1]
    · cases e1; rfl

/-- The registers of a frame are up to date. -/
def Frame.Fresh (d : Data F) (fr : Frame) : Prop :=
  ∀ v ∈ counters, pend v fr.rest = true → fr.regs v.reg = d.get v

/-- What the frames owe. -/
def owes (v : Var) (frs : List Frame) : Nat := (frs.map fun fr => owed v fr.rest).sum

structure Inv (prio : Part → Nat) (n : Var → Int) (s : Sched F) : Prop where
  count : ∀ v ∈ counters, s.mv.data.get v + owes v s.frames = n v
  rest : ∀ fr ∈ s.frames, fr.rest ∈ rests fr.part
  sorted : s.frames.Pairwise fun a b => prio a.part < prio b.part
  fresh : ∀ fr ∈ s.frames, fr.Fresh s.mv.data
  waiting : ∀ fr ∈ s.frames.tail, crit fr.rest = false ∧ fr.part ≠ .one
  locked : s.locked = (match s.frames with | [] => false | fr :: _ => crit fr.rest)

/-- The activations counted. -/
def Action.counts (v : Var) : Action F → Int
  | .start p _ => if v = .total ∨ v = p.ticks then 1 else 0
  | _ => 0

theorem Inv.act {ctx : Ctx F} (hl : ctx.lockPreemption = true) (hu : ctx.unlockPreemption = true) {prio : Part → Nat}
    (hp : ∀ p, prio .one ≤ prio p) {n : Var → Int} {s s' : Sched F} {a : Action F} (h : Inv prio n s) (ha : s.allows prio a = true)
    (e : s.act ctx a = .ret s') : Inv prio (fun v => n v + a.counts v) s' := by
  have env : ∀ (d : Data F), (∀ v ∈ counters, d.get v = s.mv.data.get v) →
      Inv prio n { s with mv := { s.mv with data := d } } := fun d hd =>
    ⟨fun v hv => by rw [← h.count v hv]; exact congrArg (· + _) (hd v hv), h.rest, h.sorted,
      fun fr hfr v hv hq => (h.fresh fr hfr v hv hq).trans (hd v hv).symm, h.waiting, h.locked⟩
  obtain ⟨mv, frs, lk⟩ := s
  cases a with
  | getClock =>
    cases e
    simp only [Action.counts, Int.add_zero]
    exact env _ (by simp [counters, Data.get])
  | getInterval =>
    simp only [Sched.act] at e
    simp only [Action.counts, Int.add_zero]
    split at e <;> cases e
    · exact env _ (by simp [counters, Data.get])
    · exact h
  | setInput x =>
    cases e
    simp only [Action.counts, Int.add_zero]
    exact env _ (by simp [counters, Data.get])
  | start p t =>
    cases e
    obtain ⟨c1, c2, c3⟩ := check_code p t
    refine ⟨fun v hv => ?_, ?_, ?_, ?_, ?_, ?_⟩
    · have := h.count v hv
      simp only [owes, List.map_cons, List.sum_cons, c3 v hv, Action.counts] at this ⊢
      rw [← this]
      split <;> simp <;> omega
    · simp only [List.mem_cons, forall_eq_or_imp]
      exact ⟨code_rests p t, h.rest⟩
    · simp only [List.pairwise_cons]
      refine ⟨fun fr hfr => ?_, h.sorted⟩
      cases frs with
      | nil => cases hfr
      | cons f frs =>
        simp only [Sched.allows, Bool.and_eq_true, decide_eq_true_eq] at ha
        rcases List.mem_cons.1 hfr with rfl | hfr
        · exact ha.2
        · exact Nat.lt_trans ha.2 ((List.pairwise_cons.1 h.sorted).1 fr hfr)
    · simp only [List.mem_cons, forall_eq_or_imp]
      refine ⟨fun v hv hq => ?_, h.fresh⟩
      rw [c2 v hv] at hq; cases hq
    · simp only [List.tail_cons]
      intro fr hfr
      cases frs with
      | nil => cases hfr
      | cons f frs =>
        rcases List.mem_cons.1 hfr with rfl | hfr
        · simp only [Sched.allows, Bool.and_eq_true, decide_eq_true_eq, Bool.not_eq_true'] at ha
          have := h.locked
          simp only at this
          refine ⟨by rw [← this]; exact ha.1, fun h1 => ?_⟩
          have h2 := hp p
          rw [h1] at ha
          omega
        · exact h.waiting fr hfr
    · simp only [c1]
      cases frs with
      | nil => exact h.locked
      | cons f frs =>
        simp only [Sched.allows, Bool.and_eq_true, Bool.not_eq_true'] at ha
        exact ha.1
  | exec =>
    simp only [Action.counts, Int.add_zero]
    cases frs with
    | nil => cases ha
    | cons fr frs =>
      simp only [Sched.act] at e
      have hrest := h.rest fr (by simp)
      split at e
      next h0 =>
        cases e
        refine ⟨fun v hv => ?_, fun f hf => h.rest f (by simp [hf]), (List.pairwise_cons.1 h.sorted).2,
          fun f hf => h.fresh f (by simp [hf]), fun f hf => h.waiting f (List.mem_of_mem_tail hf), ?_⟩
        · rw [← h.count v hv]; simp [owes, h0, owed]
        · have := h.locked
          simp only [h0] at this
          rw [this]
          cases frs with
          | nil => rfl
          | cons f frs => simp only; rw [(h.waiting f (by simp)).1]; rfl
      next i rest h0 =>
        obtain ⟨⟨g', mv'⟩, e1, e2⟩ := Outcome.bind_eq_ret.1 e
        cases e2
        rw [h0] at hrest
        have hc := check_rests hrest
        have hc' := check_rests (rests_tail hrest)
        simp only [check, Bool.and_eq_true] at hc hc'
        have hf := hc.2
        have hpw := List.pairwise_cons.1 h.sorted
        -- the counters after the instruction
        have hget : ∀ v ∈ counters, mv'.data.get v = mv.data.get v + (if i.isIncr v then 1 else 0) := by
          intro v hv
          rw [(exec_counters e1 hf (Var.mem_counters.1 hv)).1]
          split
          next hi =>
            cases i <;> simp only [Instr.isIncr, Bool.false_eq_true, decide_eq_true_eq] at hi
            next w r =>
            subst hi
            simp only [Instr.fits, Bool.and_eq_true, decide_eq_true_eq] at hf
            have := h.fresh fr (by simp) w hv (by
              simp only [pend, h0, Bool.and_eq_true, decide_eq_true_eq, List.mem_cons, hf.1.1.1.2, true_or, true_and,
                reduceCtorEq, false_or]
              rw [← hf.1.1.1.2]; exact hf.1.1.2)
            rw [this]
          next => simp
        refine ⟨fun v hv => ?_, ?_, ?_, ?_, ?_, ?_⟩
        · rw [← h.count v hv, hget v hv]
          simp only [owes, List.map_cons, List.sum_cons, h0, owed, List.countP_cons]
          split <;> simp_all <;> omega
        · simp only [List.mem_cons, forall_eq_or_imp]
          exact ⟨rests_tail hrest, fun f hf => h.rest f (by simp [hf])⟩
        · simp only [List.pairwise_cons]
          exact hpw
        · simp only [List.mem_cons, forall_eq_or_imp]
          refine ⟨fun v hv hq => ?_, fun f hfm v hv hq => ?_⟩
          · simp only at hq ⊢
            have hr := (exec_counters e1 hf (Var.mem_counters.1 hv)).2 v.reg
            have hni : i.isIncr v = false := by
              cases i <;> simp only [Instr.isIncr]
              next w r =>
              simp only [Instr.fits, Bool.and_eq_true, decide_eq_true_eq] at hf
              apply decide_eq_false
              rintro rfl
              have h1 := hf.1.2
              simp only [pend, Bool.and_eq_true, decide_eq_true_eq] at hq
              simp only [owed, List.countP_eq_zero] at h1
              exact h1 _ hq.1 (by simp [Instr.isIncr])
            rw [hget v hv, hni]
            simp only [Bool.false_eq_true, if_false, Int.add_zero]
            rw [hr]
            by_cases hload : i = .load v.reg v
            · subst hload; simp
            · have hq' : pend v fr.rest = true := by
                simp only [pend, h0, Bool.and_eq_true, decide_eq_true_eq, List.mem_cons, not_or] at hq ⊢
                exact ⟨.inr hq.1, fun h => hload h.symm, hq.2⟩
              have hfr := h.fresh fr (by simp) v hv hq'
              cases i with
              | load r w =>
                simp only
                split
                next h1 =>
                  subst h1
                  exfalso
                  simp only [Instr.fits, decide_eq_true_eq] at hf
                  have h2 := hc'.1.2
                  simp only [List.all_eq_true] at h2
                  have h3 := h2 v hv
                  simp only [pend, Bool.and_eq_true, decide_eq_true_eq] at hq
                  simp only [Bool.or_eq_true, Bool.not_eq_true', decide_eq_false_iff_not, decide_eq_true_eq] at h3
                  apply hload
                  rcases h3 with (h3 | h3) | h3
                  · exact absurd hq.1 h3
                  · subst h3; rw [hf.2 rfl]
                  · have : v.reg = .own := by subst h3; cases fr.part <;> rfl
                    rw [h3, ← h3, hf.1 this, h3]
                next => exact hfr
              | _ => exact hfr
          · rw [hget v hv]
            have hfr := h.fresh f (by simp [hfm]) v hv hq
            have hw := h.waiting f hfm
            have hcf := check_rests (h.rest f (by simp [hfm]))
            simp only [check, Bool.and_eq_true] at hcf
            have hni : i.isIncr v = false := by
              cases i <;> simp only [Instr.isIncr]
              next w r =>
              apply decide_eq_false
              rintro rfl
              simp only [Instr.fits, Bool.and_eq_true, decide_eq_true_eq] at hf
              by_cases ht : w = .total
              · subst ht
                have := hcf.1.1
                simp [hq, hw.1, hw.2] at this
              · have h1 : w = fr.part.ticks := hf.2.resolve_left ht
                have h2 := hcf.1.2
                simp only [List.all_eq_true] at h2
                have h3 := h2 w hv
                simp only [Bool.or_eq_true, Bool.not_eq_true', decide_eq_false_iff_not, decide_eq_true_eq] at h3
                simp only [pend, Bool.and_eq_true, decide_eq_true_eq] at hq
                rcases h3 with (h3 | h3) | h3
                · exact h3 hq.1
                · exact ht h3
                · have : fr.part = f.part := by
                    rw [h1] at h3
                    revert h3
                    cases fr.part <;> cases f.part <;> simp [Part.ticks]
                  have hlt := hpw.1 f hfm
                  rw [this] at hlt
                  exact Nat.lt_irrefl _ hlt
            rw [hni, hfr]; simp
        · exact h.waiting
        · have hlk := h.locked
          simp only [h0] at hlk
          simp only
          cases i with
          | lock => simp only [Instr.fits] at hf; simp [Instr.locks, hl, hf]
          | unlock => simp only [Instr.fits, Bool.and_eq_true, Bool.not_eq_true'] at hf; simp [Instr.locks, hu, hf.1]
          | _ => rw [crit_cons rfl] at hlk; simp only [Instr.locks]; exact hlk

theorem Inv.idle (prio : Part → Nat) (mv : MV F (Data F)) : Inv prio mv.data.get (Sched.idle mv) :=
  ⟨by simp [Sched.idle, owes], by simp [Sched.idle], by simp [Sched.idle], by simp [Sched.idle], by simp [Sched.idle], rfl⟩

theorem Inv.run {ctx : Ctx F} (hl : ctx.lockPreemption = true) (hu : ctx.unlockPreemption = true) {prio : Part → Nat}
    (hp : ∀ p, prio .one ≤ prio p) {s s' : Sched F} {as : List (Action F)} (e : Schedule ctx prio s as s') :
    ∀ {n : Var → Int}, Inv prio n s → Inv prio (fun v => n v + (as.map (Action.counts v)).sum) s' := by
  induction e with
  | nil s => intro n h; simpa using h
  | cons ha e _ ih =>
    intro n h
    have := ih (h.act hl hu hp ha e)
    simpa [Int.add_assoc] using this

end Verif.Clocks
