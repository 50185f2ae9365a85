import Verif.Lemmas.SameReads
import Verif.Props.C14

/-!
# C16: a failing vectored set applies exactly the references before the offending one

For a set of the pairs `ps` that fails there is a pair `p` with `ps = pre ++ p :: post`, such that
single sets of the pairs `pre` succeed and lead to a state `w₀` in which a single set of `p` fails.
All variables read after the failed call as they would in `w₀` (`SameReads`, Spec/SameReads.lean).
So the references of `pre` have the new values, the others (`p` and `post`) their old ones.
-/

set_option linter.unusedSectionVars false

namespace Verif
variable {F D ρ : Type} [Arith F] [HasInf F] {m : Model F D}

namespace FMI2

theorem stop_of_each (hm : RefFMU2 m) {t : IType} {fuel : Nat} {w w' : World F D} {op : Op F} {mk : ρ → Op F}
    {ps : List ρ} {s : Status} {o : Out F} (hw : Reachable m t w)
    (h : step m fuel w op = each m fuel mk w ps >>- fun (w', s, _) => .ret (w', s, .unit))
    (hone : ∀ (w w' : World F D) (p : ρ) s o, step m fuel w (mk p) = .ret (w', s, o) → s ≠ .OK →
      s = .Error ∧ ∃ tr, w' = { w with inst := w.inst.refusedSet tr })
    (e : step m fuel w op = .ret (w', s, o)) (hs : s ≠ .OK) :
    s = .Error ∧ w'.inst.ctx.state = .terminated ∧ ∃ pre p post w₀ os,
      ps = pre ++ p :: post ∧ each m fuel mk w pre = .ret (w₀, .OK, os) ∧
      (∃ w₁ o, step m fuel w₀ (mk p) = .ret (w₁, .Error, o)) ∧ SameReads m w₀ w' := by
  rw [e] at h
  obtain ⟨⟨w1, s1, os1⟩, e1, h⟩ := Outcome.bind_eq_ret.1 h.symm
  cases h
  obtain ⟨pre, p, post, w₀, os₀, o', rfl, h1, h2⟩ := each_stop e1 hs
  obtain ⟨rfl, tr, rfl⟩ := hone _ _ _ _ _ h2 hs
  exact ⟨rfl, rfl, pre, p, post, w₀, os₀, rfl, h1, ⟨_, _, h2⟩,
    sameReads_refused hm (each_reachable hm.eff.okOrError hw h1) tr⟩

theorem single_refused {fuel : Nat} {w w' : World F D} {op : Op F} (mask : Nat) (name : String) {t : VType}
    (k : Comp F D → Res F D Unit) {p : Nat × t.Val F} {s : Status} {o : Out F} (hu : m.UniSet t p.1)
    (h : step m fuel w op = w.run (begin mask name w.inst () k) fun _ => .unit) (hk : ∀ c, k c = wr m t c p)
    (e : step m fuel w op = .ret (w', s, o)) (hs : s ≠ .OK) :
    s = .Error ∧ ∃ tr, w' = { w with inst := w.inst.refusedSet tr } := by
  obtain rfl : k = fun c => wr m t c p := funext hk
  rw [e] at h
  simp only [World.run] at h
  obtain ⟨⟨c1, s1, u⟩, e1, h⟩ := Outcome.bind_eq_ret.1 h.symm
  cases h
  obtain ⟨rfl, tr, rfl⟩ := begin_refused hu e1 hs
  exact ⟨rfl, tr, rfl⟩

/-- **C16**, FMI 2.0, `fmi2SetReal`. -/
theorem C16_fmi2_setReal (hm : RefFMU2 m) {t : IType} {fuel : Nat} {w w' : World F D} {s : Status} {o : Out F}
    (hw : Reachable m t w) {ps : List (Nat × F)} (hne : ps ≠ [])
    (e : step m fuel w (.setReal (some (ps.map Prod.fst)) ps.length (some (ps.map Prod.snd))) = .ret (w', s, o))
    (hs : s ≠ .OK) :
    s = .Error ∧ w'.inst.ctx.state = .terminated ∧ ∃ pre p post w₀ os,
      ps = pre ++ p :: post ∧
      each m fuel (fun p => .setReal (some [p.1]) 1 (some [p.2])) w pre = .ret (w₀, .OK, os) ∧
      (∃ w₁ o, step m fuel w₀ (.setReal (some [p.1]) 1 (some [p.2])) = .ret (w₁, .Error, o)) ∧
      SameReads m w₀ w' := by
  refine stop_of_each hm hw (C14_fmi2_setReal hm fuel w ps hne) (fun w w' p s o e hs => ?_) e hs
  have hu := (hm.markSet (F := F) .float64 p.1).toUniSet
  exact single_refused MASK_SetReal "fmi2SetReal" (t := .float64) (fun c => setVariables m .float64 (some [p.1]) 1 (some [p.2]) c) (p := p) hu rfl
    (fun c => single_set hu) e hs

/-- **C16**, FMI 2.0, `fmi2SetInteger`. -/
theorem C16_fmi2_setInteger (hm : RefFMU2 m) {t : IType} {fuel : Nat} {w w' : World F D} {s : Status} {o : Out F}
    (hw : Reachable m t w) {ps : List (Nat × Int)} (hne : ps ≠ [])
    (e : step m fuel w (.setInteger (some (ps.map Prod.fst)) ps.length (some (ps.map Prod.snd))) = .ret (w', s, o))
    (hs : s ≠ .OK) :
    s = .Error ∧ w'.inst.ctx.state = .terminated ∧ ∃ pre p post w₀ os,
      ps = pre ++ p :: post ∧
      each m fuel (fun p => .setInteger (some [p.1]) 1 (some [p.2])) w pre = .ret (w₀, .OK, os) ∧
      (∃ w₁ o, step m fuel w₀ (.setInteger (some [p.1]) 1 (some [p.2])) = .ret (w₁, .Error, o)) ∧
      SameReads m w₀ w' := by
  refine stop_of_each hm hw (C14_fmi2_setInteger hm fuel w ps hne) (fun w w' p s o e hs => ?_) e hs
  have hu := (hm.markSet (F := F) .int32 p.1).toUniSet
  exact single_refused MASK_SetInteger "fmi2SetInteger" (t := .int32) (fun c => setVariables m .int32 (some [p.1]) 1 (some [p.2]) c) (p := p) hu rfl
    (fun c => single_set hu) e hs

/-- **C16**, FMI 2.0, `fmi2SetBoolean`. -/
theorem C16_fmi2_setBoolean (hm : RefFMU2 m) {t : IType} {fuel : Nat} {w w' : World F D} {s : Status} {o : Out F}
    (hw : Reachable m t w) {ps : List (Nat × Int)} (hne : ps ≠ [])
    (e : step m fuel w (.setBoolean (some (ps.map Prod.fst)) ps.length (some (ps.map Prod.snd))) = .ret (w', s, o))
    (hs : s ≠ .OK) :
    s = .Error ∧ w'.inst.ctx.state = .terminated ∧ ∃ pre p post w₀ os,
      ps = pre ++ p :: post ∧
      each m fuel (fun p => .setBoolean (some [p.1]) 1 (some [p.2])) w pre = .ret (w₀, .OK, os) ∧
      (∃ w₁ o, step m fuel w₀ (.setBoolean (some [p.1]) 1 (some [p.2])) = .ret (w₁, .Error, o)) ∧
      SameReads m w₀ w' := by
  refine stop_of_each hm hw (C14_fmi2_setBoolean hm fuel w ps hne) (fun w w' p s o e hs => ?_) e hs
  have hu := (hm.markSet (F := F) .boolean p.1).toUniSet
  exact single_refused MASK_SetInteger "fmi2SetBoolean" (t := .boolean) (fun c => setBooleanLoop m (some [p.1]) 1 (some [p.2]) 1 0 c .OK)
    (p := (p.1, decide (p.2 ≠ 0))) hu rfl (fun c => setBooleanLoop_single (hm.markSet .boolean p.1) c) e hs

/-- **C16**, FMI 2.0, `fmi2SetString`. -/
theorem C16_fmi2_setString (hm : RefFMU2 m) {t : IType} {fuel : Nat} {w w' : World F D} {s : Status} {o : Out F}
    (hw : Reachable m t w) {ps : List (Nat × Ptr UInt8)} (hne : ps ≠ [])
    (e : step m fuel w (.setString (some (ps.map Prod.fst)) ps.length (some (ps.map Prod.snd))) = .ret (w', s, o))
    (hs : s ≠ .OK) :
    s = .Error ∧ w'.inst.ctx.state = .terminated ∧ ∃ pre p post w₀ os,
      ps = pre ++ p :: post ∧
      each m fuel (fun p => .setString (some [p.1]) 1 (some [p.2])) w pre = .ret (w₀, .OK, os) ∧
      (∃ w₁ o, step m fuel w₀ (.setString (some [p.1]) 1 (some [p.2])) = .ret (w₁, .Error, o)) ∧
      SameReads m w₀ w' := by
  refine stop_of_each hm hw (C14_fmi2_setString hm fuel w ps hne) (fun w w' p s o e hs => ?_) e hs
  have hu := (hm.markSet (F := F) .string p.1).toUniSet
  exact single_refused MASK_SetInteger "fmi2SetString" (t := .string) (fun c => setVariables m .string (some [p.1]) 1 (some [p.2]) c) (p := p) hu rfl
    (fun c => single_set hu) e hs

/-- Non-vacuity: of four inputs of Feedthrough the third reference is unknown; the first two have
their new values, the fourth its old one, and the outputs follow. -/
example : (Ex.run2 (Feedthrough.model false) .coSimulation (Ex.init2 ++
    [.setReal (some [7, 9, 77, 7]) 4 (some [.fin 5, .fin 6, .fin 7, .fin 8]),
      .getReal (some [7, 8, 9, 10]) 4 (some [.fin 0, .fin 0, .fin 0, .fin 0])])).is (fun x =>
      x.1.inst.ctx.state == .terminated &&
      x.2.drop 3 == [(.Error, .unit), (.OK, .reals (some [.fin 5, .fin 5, .fin 6, .fin 6]))]) = true := by
  decide +kernel

end FMI2

namespace FMI3

theorem SameReads.trans {w w1 w2 : World F D} (h : SameReads m w w1) (ht : w1.inst.ctx.state = .terminated)
    (h' : SameReads m w1 w2) : SameReads m w w2 := by
  intro fuel t vr n v nv ha w₁ s o e
  obtain ⟨w3, e⟩ := h fuel t vr n v nv ha w₁ s o e
  exact h' fuel t vr n v nv (by rw [ht]; simp [Spec.allowedIn]) w3 s o e

theorem single_refused {fuel : Nat} {w w' : World F D} {t : VType} {p : Nat × t.Val F} {s : Status} {o : Out F}
    (hu : m.UniSet t p.1) (e : step m fuel w (.set t (some [p.1]) 1 (some [p.2]) 1) = .ret (w', s, o)) (hs : s ≠ .OK) :
    s = .Error ∧ ∃ tr, w' = { w with inst := w.inst.refusedSet tr } := by
  simp only [step, single_set hu, World.run] at e
  obtain ⟨⟨c1, s1, u⟩, e1, h⟩ := Outcome.bind_eq_ret.1 e
  cases h
  obtain ⟨rfl, tr, rfl⟩ := begin_refused (p := p) hu e1 hs
  exact ⟨rfl, tr, rfl⟩

/-- **C16**, FMI 3.0, the Set functions of all data types, for the FMUs with only scalar
variables. -/
theorem C16_fmi3 (hm : ScalarFMU3 m) {it : IType} {fuel : Nat} {t : VType} {w w' : World F D} {s : Status} {o : Out F}
    (hw : Reachable m it w) {ps : List (Nat × t.Val F)} (hne : ps ≠ [])
    (e : step m fuel w (.set t (some (ps.map Prod.fst)) ps.length (some (ps.map Prod.snd)) ps.length) = .ret (w', s, o))
    (hs : s ≠ .OK) :
    s = .Error ∧ w'.inst.ctx.state = .terminated ∧ ∃ pre p post w₀ os,
      ps = pre ++ p :: post ∧
      each m fuel (fun p => .set t (some [p.1]) 1 (some [p.2]) 1) w pre = .ret (w₀, .OK, os) ∧
      (∃ w₁ o, step m fuel w₀ (.set t (some [p.1]) 1 (some [p.2]) 1) = .ret (w₁, .Error, o)) ∧
      SameReads m w₀ w' := by
  have hu : ∀ p ∈ ps, m.UniSet t p.1 := fun p _ => hm.uniSet t p.1
  have e2 : ∀ w : World F D, ∀ p : Nat × t.Val F, step m fuel w (.set t (some [p.1]) 1 (some [p.2]) 1) =
    w.run (setVars m t w.inst (some [p.1]) 1 (some [p.2]) 1) fun _ => .unit := fun _ _ => rfl
  -- the sequence of single sets fails in a world that differs in the flag only
  obtain ⟨w1, os, e1, hd⟩ : ∃ w1 os, each m fuel (fun p => .set t (some [p.1]) 1 (some [p.2]) 1) w ps = .ret (w1, s, os) ∧
      (w' = w1 ∨ (∀ ctx mv, m.calculateValues ctx mv = .ret (mv, .OK, ())) ∧
        ∃ b, w' = { w1 with inst := w1.inst.setDirty b }) := by
    rcases hm.markSet with hk | ⟨-, hc⟩
    · have h := set_step (m := m) (fuel := fuel) (w := w)
        (op := .set t (some (ps.map Prod.fst)) ps.length (some (ps.map Prod.snd)) ps.length)
        (k := fun c => setVars m t c (some (ps.map Prod.fst)) ps.length (some (ps.map Prod.snd)) ps.length)
        rfl e2 (set_each hne (fun p _ => hk t p.1) w.inst)
      rw [e] at h
      obtain ⟨⟨w1, s1, os1⟩, e1, h⟩ := Outcome.bind_eq_ret.1 h.symm
      cases h
      exact ⟨_, _, e1, .inl rfl⟩
    · have h := set_each' hne hu w.inst
      simp only [step, World.run] at e
      obtain ⟨⟨c1, s1, u⟩, e1, e⟩ := Outcome.bind_eq_ret.1 e
      cases e
      rw [e1] at h
      rw [each_eq (one := fun c (p : Nat × t.Val F) => setVars m t c (some [p.1]) 1 (some [p.2]) 1) (out := fun _ => .unit) e2]
      generalize eachC (fun c (p : Nat × t.Val F) => setVars m t c (some [p.1]) 1 (some [p.2]) 1) w.inst ps = r2 at h
      rcases r2 with ⟨c2, s2, l2⟩ | _ | _ <;> simp [undirty] at h
      obtain ⟨h, rfl⟩ := h
      refine ⟨_, _, rfl, .inr ⟨hc, c1.mv.isDirtyValues, ?_⟩⟩
      have : c1 = c2.setDirty c1.mv.isDirtyValues := by
        have h2 := congrArg (fun c => Comp.setDirty c c1.mv.isDirtyValues) h
        exact h2
      exact congrArg (fun c => ({ w with inst := c } : World F D)) this
  obtain ⟨pre, p, post, w₀, os₀, o', rfl, h1, h2⟩ := each_stop e1 hs
  obtain ⟨rfl, tr, rfl⟩ := single_refused (hu p (by simp)) h2 hs
  have hsame := sameReads_refused hm.ref (each_reachable hm.ref.eff.okOrError hw h1) tr
  refine ⟨rfl, ?_, pre, p, post, w₀, os₀, rfl, h1, ⟨_, _, h2⟩, ?_⟩
  · rcases hd with rfl | ⟨-, b, rfl⟩ <;> rfl
  · rcases hd with rfl | ⟨hc, b, rfl⟩
    · exact hsame
    · exact hsame.trans rfl (sameReads_dirty hc b)

/-- Non-vacuity: the third of four references is an output that cannot be set. -/
example : (Ex.runCS3 (Feedthrough.model true) false false (Ex.init3 ++
    [.set .float64 (some [7, 9, 8, 7]) 4 (some [.fin 5, .fin 6, .fin 7, .fin 8]) 4,
      .get .float64 (some [7, 8, 9, 10]) 4 (some [.fin 0, .fin 0, .fin 0, .fin 0]) 4])).is (fun x =>
      x.1.inst.ctx.state == .terminated &&
      x.2.drop 2 == [(.Error, .unit), (.OK, .values .float64 (some [.fin 5, .fin 5, .fin 6, .fin 6]))]) = true := by
  decide +kernel

end FMI3
end Verif
