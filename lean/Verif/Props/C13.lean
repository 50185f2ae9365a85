import Verif.Lemmas.HeldRef
import Verif.Props.C16
import Verif.Examples

/-!
# C13: every output of Feedthrough equals its input; C56: parameters and inputs keep their values

`FeedPort v3 t i o start` lists the inputs and outputs of Feedthrough, `Held m t r start` the parameters
and inputs of all FMUs. `Mem.after` calculates from the calls alone which value a variable must have
(Spec/Held.lean): the value most recently set, the start value after a reset, the restored value after
the FMU state was restored.
-/

set_option linter.unusedSectionVars false

namespace Verif
variable {F D : Type} [Arith F] [HasInf F] {m : Model F D} {t : VType} {r i o : Nat} {start : t.Val F}

theorem begin_fails {p : Nat × t.Val F}
    (h : ∀ ctx mv, ∃ mv' j, m.set t ctx mv p.1 (some [p.2]) 1 0 = .ret (mv', .Error, j)) (al : Bool) (name : String)
    (c : Comp F D) : ∃ c', beginFunction al name c () (fun c => wr m t c p) = .ret (c', .Error, ()) := by
  unfold beginFunction
  split
  · obtain ⟨mv', j, e⟩ := h c.ctx c.mv
    exact ⟨_, wr_err (r := p.1) (v := p.2) e⟩
  · exact ⟨_, rfl⟩

theorem failM_error {β : Type} (ctx : Ctx F) (mv : MV F D) (msg : String) (b : β) :
    ∃ mv' j, failM ctx mv msg b = .ret (mv', .Error, j) := by
  unfold failM logError
  split <;> exact ⟨_, _, rfl⟩

namespace Feedthrough

theorem string_refused {s : List UInt8} (hs : 128 ≤ s.length) (ctx : Ctx F) (mv : MV F (Data F)) :
    ∃ mv' j, setString ctx mv 29 (some [some s]) 1 0 = .ret (mv', .Error, j) := by
  have : setString ctx mv 29 (some [some s]) 1 0 = if s.length ≥ maxLen then failM ctx mv "Max. string length is %d bytes." 0 else _ := rfl
  rw [this, if_pos (show s.length ≥ maxLen from hs)]
  exact failM_error _ _ _ _

theorem binary_refused {b : CBinary} (hb : 128 < b.size) (ctx : Ctx F) (mv : MV F (Data F)) :
    ∃ mv' j, setBinary ctx mv 31 (some [b]) 1 0 = .ret (mv', .Error, j) := by
  have : setBinary ctx mv 31 (some [b]) 1 0 = if b.size > maxLen then failM ctx mv "Max. binary size is %d bytes." 0 else _ := rfl
  rw [this, if_pos (show b.size > maxLen from hb)]
  exact failM_error _ _ _ _

theorem enum2_refused {n : Int} (h1 : n ≠ 1) (h2 : n ≠ 2) (ctx : Ctx F) (mv : MV F (Data F)) :
    ∃ mv' j, setInt32 false ctx mv 33 (some [n]) 1 0 = .ret (mv', .Error, j) := by
  have : setInt32 false ctx mv 33 (some [n]) 1 0 =
    if n ≠ 1 && n ≠ 2 then failM ctx mv "%d is not a legal value for Enumeration_input." 0 else _ := rfl
  rw [this, if_pos (by simp [h1, h2])]
  exact failM_error _ _ _ _

theorem enum3_refused {n : Int} (h1 : n ≠ 1) (h2 : n ≠ 2) (ctx : Ctx F) (mv : MV F (Data F)) :
    ∃ mv' j, setInt64 true ctx mv 33 (some [n]) 1 0 = .ret (mv', .Error, j) := by
  have : setInt64 true ctx mv 33 (some [n]) 1 0 =
    if n ≠ 1 && n ≠ 2 then failM ctx mv "%d is not a legal value for Enumeration_input." 0 else _ := rfl
  rw [this, if_pos (by simp [h1, h2])]
  exact failM_error _ _ _ _

end Feedthrough

namespace FMI2

/-- **C56**, FMI 2.0. After any successful history a parameter or input has the value that was set most
recently. -/
theorem C56_fmi2 (hm : RefFMU2 m) (hv : Held m t r start) (ht : t = .float64 ∨ t = .int32 ∨ t = .boolean ∨ t = .string)
    {name it guid resource functions loggingOn mem} {c : Comp F D} {l}
    (hc : instantiate m name it guid resource functions loggingOn mem = (some c, l))
    {w w' : World F D} (hw : w.Initial c) {fuel : Nat} {ops : List (Op F)} {outs}
    (e : run m fuel w ops = .ret (w', outs)) (hok : ∀ p ∈ outs, p.1 = .OK)
    (hs : w'.inst.ctx.state ∈ Spec.allowedIn .getReal) :
    Reads m w' t r (ops.foldl (Mem.after r start) (Mem.new start)).now := by
  obtain ⟨H, R, l, hR, hl⟩ := hv.lens
  have := run_held H hm.eff.okOrError ops (initial_held H hc hw) e hok
  rw [← this.now, ← hl]
  exact reads_lens l hR ht hs

/-- **C13**, FMI 2.0. After any successful history an output of Feedthrough has the value that was set
most recently for its input. -/
theorem C13_fmi2 (hp : FeedPort false t i o start)
    {name it guid resource functions loggingOn mem} {c : Comp F (Feedthrough.Data F)} {l}
    (hc : instantiate (Feedthrough.model false) name it guid resource functions loggingOn mem = (some c, l))
    {w w' : World F (Feedthrough.Data F)} (hw : w.Initial c) {fuel : Nat} {ops : List (Op F)} {outs}
    (e : run (Feedthrough.model false) fuel w ops = .ret (w', outs)) (hok : ∀ p ∈ outs, p.1 = .OK)
    (hs : w'.inst.ctx.state ∈ Spec.allowedIn .getReal) :
    Reads (Feedthrough.model false) w' t o (ops.foldl (Mem.after i start) (Mem.new start)).now := by
  obtain ⟨H, R, l, -, hR, -, hl⟩ := hp.lens
  have := run_held H RefFMU2.feedthrough.eff.okOrError ops (initial_held H hc hw) e hok
  rw [← this.now, ← hl]
  exact reads_lens l hR (by cases hp <;> simp [hasType]) hs

/-- **C13**, FMI 2.0: input and output read the same in every instance state. -/
theorem C13_fmi2_equal (hp : FeedPort false t i o start) {w : World F (Feedthrough.Data F)} {v : t.Val F} :
    Reads (Feedthrough.model false) w t o v ↔ Reads (Feedthrough.model false) w t i v := by
  obtain ⟨H, R, l, hi, ho, h1, h2⟩ := hp.lens
  have key : ∀ {a b : Nat}, (t, a) ∈ R → (t, b) ∈ R → (∀ τ d, l.val t a τ d = H.sel d) →
      (∀ τ d, l.val t b τ d = H.sel d) → Reads (Feedthrough.model false) w t a v →
      Reads (Feedthrough.model false) w t b v := by
    intro a b ha hb e1 e2 h
    have ra := reads_lens l ha h.hasType h.allowed
    have rb := reads_lens l hb h.hasType h.allowed
    rw [h.unique ra, e1, ← e2]
    exact rb
  exact ⟨key ho hi h2 h1, key hi ho h1 h2⟩

/-- **C13**, FMI 2.0: a string of 128 bytes or more is refused and leaves the old values. -/
theorem C13_fmi2_string {it : IType} {w : World F (Feedthrough.Data F)} (hw : Reachable (Feedthrough.model false) it w)
    {s : List UInt8} (hs : 128 ≤ s.length) (fuel : Nat) :
    ∃ w', step (Feedthrough.model false) fuel w (.setString (some [29]) 1 (some [some s])) = .ret (w', .Error, .unit) ∧
      SameReads (Feedthrough.model false) w w' := by
  have hu := (RefFMU2.feedthrough.markSet (F := F) .string 29).toUniSet
  obtain ⟨c', e⟩ := begin_fails (F := F) (m := Feedthrough.model false) (t := .string) (p := (29, some s))
    (fun ctx mv => Feedthrough.string_refused hs ctx mv) (allowed w.inst.ctx MASK_SetInteger) "fmi2SetString" w.inst
  obtain ⟨-, tr, rfl⟩ := begin_refused hu e (by simp)
  refine ⟨_, ?_, sameReads_refused .feedthrough hw tr⟩
  simp only [step, World.run, setString, begin, single_set hu]
  rw [e]
  rfl

/-- **C13**, FMI 2.0: an enumeration value other than 1 and 2 is refused and leaves the old values. -/
theorem C13_fmi2_enum {it : IType} {w : World F (Feedthrough.Data F)} (hw : Reachable (Feedthrough.model false) it w)
    {n : Int} (h1 : n ≠ 1) (h2 : n ≠ 2) (fuel : Nat) :
    ∃ w', step (Feedthrough.model false) fuel w (.setInteger (some [33]) 1 (some [n])) = .ret (w', .Error, .unit) ∧
      SameReads (Feedthrough.model false) w w' := by
  have hu := (RefFMU2.feedthrough.markSet (F := F) .int32 33).toUniSet
  obtain ⟨c', e⟩ := begin_fails (F := F) (m := Feedthrough.model false) (t := .int32) (p := (33, n))
    (fun ctx mv => Feedthrough.enum2_refused h1 h2 ctx mv) (allowed w.inst.ctx MASK_SetInteger) "fmi2SetInteger" w.inst
  obtain ⟨-, tr, rfl⟩ := begin_refused hu e (by simp)
  refine ⟨_, ?_, sameReads_refused .feedthrough hw tr⟩
  simp only [step, World.run, setInteger, begin, single_set hu]
  rw [e]
  rfl

/-- Non-vacuity: a state with the input at 5 is saved, the input is set twice in one call, and the
state is restored; the outputs follow each time. -/
example : (Ex.run2 (Feedthrough.model false) .coSimulation (Ex.init2 ++
    [.setReal (some [7]) 1 (some [.fin 5]), .getFMUstate 0, .setReal (some [7, 9, 7]) 3 (some [.fin 1, .fin 2, .fin 3]),
      .getReal (some [8, 10]) 2 (some [.fin 0, .fin 0]), .setFMUstate 0, .getReal (some [8, 10]) 2 (some [.fin 0, .fin 0]),
      .reset, .enterInitializationMode, .getReal (some [8, 10]) 2 (some [.fin 0, .fin 0])])).is (fun x =>
      x.2.drop 6 == [(.OK, .reals (some [.fin 3, .fin 2])), (.OK, .unit), (.OK, .reals (some [.fin 5, .fin 0])), (.OK, .unit),
        (.OK, .unit), (.OK, .reals (some [.fin 0, .fin 0]))]) = true := by
  decide +kernel

/-- What the specification says about the first part of that history. -/
example : (([.setReal (some [7]) 1 (some [.fin 5]), .getFMUstate 0,
    .setReal (some [7, 9, 7]) 3 (some [.fin 1, .fin 2, .fin 3])] : List (Op XRat)).foldl (Mem.after (t := .float64) 7 (.fin 0))
      (Mem.new (.fin 0))).now = .fin 3 := by
  decide +kernel

/-- Non-vacuity of the refusals: the outputs keep their values. -/
example : (Ex.run2 (Feedthrough.model false) .coSimulation (Ex.init2 ++
    [.setInteger (some [33]) 1 (some [2]), .setInteger (some [33]) 1 (some [3]), .getInteger (some [34]) 1 (some [0]),
      .getString (some [30]) 1 (some [none])])).is (fun x =>
      x.2.drop 3 == [(.OK, .unit), (.Error, .unit), (.OK, .ints (some [2])),
        (.OK, .strs (some [some (Feedthrough.ascii "Set me!")]))]) = true := by
  decide +kernel

end FMI2

namespace FMI3

/-- **C56**, FMI 3.0. After any successful history a parameter or input has the value that was set most
recently. -/
theorem C56_fmi3 (hm : RefFMU3 m) (hv : Held m t r start) {it : IType} {c : Comp F D} (hc : New m it c)
    {w w' : World F D} (hw : w.Initial c) {fuel : Nat} {ops : List (Op F)} {outs}
    (e : run m fuel w ops = .ret (w', outs)) (hok : ∀ p ∈ outs, p.1 = .OK)
    (hs : w'.inst.ctx.state ∈ Spec.allowedIn (.get t)) :
    Reads m w' t r (ops.foldl (Mem.after r start) (Mem.new start)).now := by
  obtain ⟨H, R, l, hR, hl⟩ := hv.lens
  have := run_held H hm.eff.okOrError ops (initial_held H hc hw) e hok
  rw [← this.now, ← hl]
  exact reads_lens l hR hs

/-- **C13**, FMI 3.0. After any successful history an output of Feedthrough has the value that was set
most recently for its input. -/
theorem C13_fmi3 (hp : FeedPort true t i o start) {it : IType} {c : Comp F (Feedthrough.Data F)}
    (hc : New (Feedthrough.model true) it c) {w w' : World F (Feedthrough.Data F)} (hw : w.Initial c) {fuel : Nat}
    {ops : List (Op F)} {outs} (e : run (Feedthrough.model true) fuel w ops = .ret (w', outs)) (hok : ∀ p ∈ outs, p.1 = .OK)
    (hs : w'.inst.ctx.state ∈ Spec.allowedIn (.get t)) :
    Reads (Feedthrough.model true) w' t o (ops.foldl (Mem.after i start) (Mem.new start)).now := by
  obtain ⟨H, R, l, -, hR, -, hl⟩ := hp.lens
  have := run_held H RefFMU3.feedthrough.eff.okOrError ops (initial_held H hc hw) e hok
  rw [← this.now, ← hl]
  exact reads_lens l hR hs

/-- **C13**, FMI 3.0: input and output read the same in every instance state. -/
theorem C13_fmi3_equal (hp : FeedPort true t i o start) {w : World F (Feedthrough.Data F)} {v : t.Val F} :
    Reads (Feedthrough.model true) w t o v ↔ Reads (Feedthrough.model true) w t i v := by
  obtain ⟨H, R, l, hi, ho, h1, h2⟩ := hp.lens
  have key : ∀ {a b : Nat}, (t, a) ∈ R → (t, b) ∈ R → (∀ τ d, l.val t a τ d = H.sel d) →
      (∀ τ d, l.val t b τ d = H.sel d) → Reads (Feedthrough.model true) w t a v →
      Reads (Feedthrough.model true) w t b v := by
    intro a b ha hb e1 e2 h
    have ra := reads_lens l ha h.allowed
    have rb := reads_lens l hb h.allowed
    rw [h.unique ra, e1, ← e2]
    exact rb
  exact ⟨key ho hi h2 h1, key hi ho h1 h2⟩

theorem feed_refused {t : VType} {p : Nat × t.Val F} {it : IType} {w : World F (Feedthrough.Data F)}
    (hw : Reachable (Feedthrough.model true) it w)
    (h : ∀ ctx mv, ∃ mv' j, (Feedthrough.model true).set t ctx mv p.1 (some [p.2]) 1 0 = .ret (mv', .Error, j)) (fuel : Nat) :
    ∃ w', step (Feedthrough.model true) fuel w (.set t (some [p.1]) 1 (some [p.2]) 1) = .ret (w', .Error, .unit) ∧
      SameReads (Feedthrough.model true) w w' := by
  have hu := ScalarFMU3.feedthrough.uniSet (F := F) t p.1
  obtain ⟨c', e⟩ := begin_fails h (allowed w.inst.ctx (setMask t)) (setName t) w.inst
  obtain ⟨-, tr, rfl⟩ := begin_refused hu e (by simp)
  refine ⟨_, ?_, sameReads_refused .feedthrough hw tr⟩
  simp only [step, World.run, single_set hu, begin]
  rw [e]
  rfl

/-- **C13**, FMI 3.0: a string of 128 bytes or more is refused and leaves the old values. -/
theorem C13_fmi3_string {it : IType} {w : World F (Feedthrough.Data F)} (hw : Reachable (Feedthrough.model true) it w)
    {s : List UInt8} (hs : 128 ≤ s.length) (fuel : Nat) :
    ∃ w', step (Feedthrough.model true) fuel w (.set .string (some [29]) 1 (some [some s]) 1) = .ret (w', .Error, .unit) ∧
      SameReads (Feedthrough.model true) w w' :=
  feed_refused (t := .string) (p := (29, some s)) hw (fun ctx mv => Feedthrough.string_refused hs ctx mv) fuel

/-- **C13**, FMI 3.0: a binary of more than 128 bytes is refused and leaves the old values. -/
theorem C13_fmi3_binary {it : IType} {w : World F (Feedthrough.Data F)} (hw : Reachable (Feedthrough.model true) it w)
    {b : CBinary} (hb : 128 < b.size) (fuel : Nat) :
    ∃ w', step (Feedthrough.model true) fuel w (.set .binary (some [31]) 1 (some [b]) 1) = .ret (w', .Error, .unit) ∧
      SameReads (Feedthrough.model true) w w' :=
  feed_refused (t := .binary) (p := (31, b)) hw (fun ctx mv => Feedthrough.binary_refused hb ctx mv) fuel

/-- **C13**, FMI 3.0: an enumeration value other than 1 and 2 is refused and leaves the old values. -/
theorem C13_fmi3_enum {it : IType} {w : World F (Feedthrough.Data F)} (hw : Reachable (Feedthrough.model true) it w)
    {n : Int} (h1 : n ≠ 1) (h2 : n ≠ 2) (fuel : Nat) :
    ∃ w', step (Feedthrough.model true) fuel w (.set .int64 (some [33]) 1 (some [n]) 1) = .ret (w', .Error, .unit) ∧
      SameReads (Feedthrough.model true) w w' :=
  feed_refused (t := .int64) (p := (33, n)) hw (fun ctx mv => Feedthrough.enum3_refused h1 h2 ctx mv) fuel

/-- Non-vacuity: a binary input is set, saved, set again, and restored. -/
example : (Ex.runCS3 (Feedthrough.model true) false false (Ex.init3 ++
    [.set .binary (some [31]) 1 (some [⟨2, some [1, 2, 3]⟩]) 1, .getFMUState 0,
      .set .binary (some [31]) 1 (some [⟨1, some [9]⟩]) 1, .get .binary (some [32]) 1 (some [⟨0, none⟩]) 1,
      .setFMUState 0, .get .binary (some [32]) 1 (some [⟨0, none⟩]) 1])).is (fun x =>
      x.2.drop 5 == [(.OK, .values .binary (some [⟨1, some [9]⟩])), (.OK, .unit),
        (.OK, .values .binary (some [⟨2, some [1, 2]⟩]))]) = true := by
  decide +kernel

/-- Non-vacuity of the refusals. -/
example : (Ex.runCS3 (Feedthrough.model true) false false (Ex.init3 ++
    [.set .int64 (some [33]) 1 (some [2]) 1, .set .int64 (some [33]) 1 (some [0]) 1,
      .get .int64 (some [34]) 1 (some [0]) 1])).is (fun x =>
      x.2.drop 2 == [(.OK, .unit), (.Error, .unit), (.OK, .values .int64 (some [2]))]) = true := by
  decide +kernel

end FMI3
end Verif
