import Verif.Lemmas.OdeRef
import Verif.Lemmas.Reach3
import Verif.RefFMUs

/-!
# The state vector functions of the Reference FMUs

`StateSpace.dims`: the dimensions of StateSpace stay in bounds.
-/

set_option linter.unusedSectionVars false

namespace Verif
variable {F D : Type} [Arith F] [HasInf F]

/-- What the Model Exchange vector functions of an FMU do, for instances that satisfy `Q`. -/
structure Model.Vectors (m : Model F D) (Q : MV F D → Prop) : Prop where
  /-- any length but the announced one is refused -/
  wrong : ∀ {ctx mv p n}, n ≠ m.numContinuousStates mv →
    (∃ mv', m.getContinuousStates ctx mv p n = .ret (mv', .Error, p)) ∧
    (∃ mv', m.setContinuousStates ctx mv p n = .ret (mv', .Error, p)) ∧
    (∃ mv', m.getDerivatives ctx mv p n = .ret (mv', .Error, p)) ∧
    (∃ mv', m.getNominals ctx mv p n = .ret (mv', .Error, p))
  wrongZ : ∀ {ctx mv p n}, n ≠ m.numEventIndicators mv →
    ∃ mv', m.getEventIndicators ctx mv p n = .ret (mv', .Error, p)
  /-- the announced length is accepted -/
  right : ∀ {ctx mv l}, Q mv → l.length = m.numContinuousStates mv →
    (∃ mv' l', m.getContinuousStates ctx mv (some l) (m.numContinuousStates mv) =
      .ret (mv', .OK, some l') ∧ l'.length = l.length) ∧
    (∃ mv' p, m.setContinuousStates ctx mv (some l) (m.numContinuousStates mv) = .ret (mv', .OK, p)) ∧
    (∃ mv' l', m.getDerivatives ctx mv (some l) (m.numContinuousStates mv) =
      .ret (mv', .OK, some l') ∧ l'.length = l.length) ∧
    (∃ mv' l', m.getNominals ctx mv (some l) (m.numContinuousStates mv) =
      .ret (mv', .OK, some l') ∧ l'.length = l.length ∧ ∀ v ∈ l', ∃ q : Rat, 0 < q ∧ v = Arith.lit q)
  rightZ : ∀ {ctx mv l}, Q mv → l.length = m.numEventIndicators mv →
    ∃ mv' l', m.getEventIndicators ctx mv (some l) (m.numEventIndicators mv) =
      .ret (mv', .OK, some l') ∧ l'.length = l.length
  /-- what was set is read back -/
  back : ∀ {ctx mv x mv' p}, m.setContinuousStates ctx mv (some x) x.length = .ret (mv', .OK, p) →
    ∀ ctx' y, y.length = x.length →
      ∃ mv'', m.getContinuousStates ctx' mv' (some y) y.length = .ret (mv'', .OK, some x)

/-- FMUs without continuous states and event indicators. -/
theorem Model.Vectors.stub {m : Model F D} (h1 : m.numContinuousStates = fun _ => 0)
    (h2 : m.numEventIndicators = fun _ => 0) (h3 : m.getContinuousStates = vecStub)
    (h4 : m.setContinuousStates = vecStub) (h5 : m.getDerivatives = vecStub)
    (h6 : m.getNominals = vecStub) (h7 : m.getEventIndicators = vecStub) :
    m.Vectors fun _ => True where
  wrong := by
    intro ctx mv p n h
    rw [h1] at h
    simp only [h3, h4, h5, h6, vecStub, assertSize, if_pos h, failM]
    refine ⟨⟨_, rfl⟩, ⟨_, rfl⟩, ⟨_, rfl⟩, ⟨_, rfl⟩⟩
  wrongZ := by
    intro ctx mv p n h
    rw [h2] at h
    simp only [h7, vecStub, assertSize, if_pos h, failM]
    exact ⟨_, rfl⟩
  right := by
    intro ctx mv l _ h
    rw [h1] at h
    have : l = [] := List.length_eq_zero_iff.1 h
    subst this
    simp only [h1, h3, h4, h5, h6, vecStub, assertSize]
    refine ⟨⟨_, _, rfl, rfl⟩, ⟨_, _, rfl⟩, ⟨_, _, rfl, rfl⟩, ⟨_, _, rfl, rfl, fun _ h => by cases h⟩⟩
  rightZ := by
    intro ctx mv l _ h
    rw [h2] at h
    have : l = [] := List.length_eq_zero_iff.1 h
    subst this
    simp only [h2, h7, vecStub, assertSize]
    exact ⟨_, _, rfl, rfl⟩
  back := by
    intro ctx mv x mv' p h ctx' y hy
    rw [h4, vecStub, assertSize, failM] at h
    split at h
    · simp at h
    · rename_i hx
      have hx : x.length = 0 := by simpa using hx
      have : y = x := by
        rw [List.length_eq_zero_iff.1 hx, List.length_eq_zero_iff.1 (hy.trans hx)]
      subst this
      refine ⟨mv', ?_⟩
      rw [h3, vecStub, assertSize, hx]
      rfl

theorem putVector_wrong {ctx : Ctx F} {mv mv' : MV F D} {p n vs} (h : n ≠ vs.length) :
    ∃ mv'', putVector ctx mv mv' p n vs = .ret (mv'', .Error, p) := by
  unfold putVector assertNotNull assertSize failM
  simp only [if_pos h]
  split
  · exact ⟨_, rfl⟩
  · exact ⟨_, rfl⟩

theorem takeVector_wrong {ctx : Ctx F} {mv : MV F D} {p n k upd} (h : n ≠ k) :
    ∃ mv'', takeVector ctx mv p n k upd = .ret (mv'', .Error, p) := by
  unfold takeVector assertNotNull assertSize failM
  simp only [if_pos h]
  split
  · exact ⟨_, rfl⟩
  · exact ⟨_, rfl⟩

theorem putVector_right {ctx : Ctx F} {mv mv' : MV F D} {l vs : List F} {n : Nat}
    (h : l.length = vs.length) (hn : n = vs.length) :
    putVector ctx mv mv' (some l) n vs = .ret (mv', .OK, some vs) := by
  rw [hn, putVector_eq (by omega), List.drop_of_length_le (by omega), List.append_nil]

/-- FMUs with a fixed number of states. -/
theorem Model.Vectors.ode {m : Model F D} (o : Ode m) (hx : 0 < o.nx)
    (nom : List F) (hnl : nom.length = o.nx) (hnp : ∀ v ∈ nom, ∃ q : Rat, 0 < q ∧ v = Arith.lit q)
    (hn : ∀ ctx mv p n, ∃ mv', m.getNominals ctx mv p n = putVector ctx mv mv' p n nom)
    (hz : o.nz = 0 → m.getEventIndicators = vecStub)
    (hu : ∀ d l, l.length = o.nx → o.states (o.upd d l) = l) : m.Vectors fun _ => True where
  wrong := by
    intro ctx mv p n h
    rw [o.numX] at h
    rw [o.getStates hx, o.setStates hx, o.getDerivs hx]
    obtain ⟨mv', hn⟩ := hn ctx mv p n
    rw [hn]
    exact ⟨putVector_wrong (by rw [o.lenX]; exact h), takeVector_wrong h,
      putVector_wrong (by rw [o.lenD]; exact h), putVector_wrong (by rw [hnl]; exact h)⟩
  wrongZ := by
    intro ctx mv p n h
    rw [o.numZ] at h
    rcases Nat.eq_zero_or_pos o.nz with h0 | h0
    · rw [hz h0, vecStub, assertSize, if_pos (h0 ▸ h)]
      exact ⟨_, rfl⟩
    · rw [o.getInds h0]
      exact putVector_wrong (by rw [o.lenZ]; exact h)
  right := by
    intro ctx mv l _ h
    rw [o.numX] at h ⊢
    rw [o.getStates hx, o.setStates hx, o.getDerivs hx]
    obtain ⟨mv', hn⟩ := hn ctx mv (some l) o.nx
    rw [hn]
    exact ⟨⟨_, _, putVector_right (by rw [h, o.lenX]) (o.lenX _).symm, by rw [o.lenX, h]⟩,
      ⟨_, _, takeVector_eq (by omega)⟩,
      ⟨_, _, putVector_right (by rw [h, o.lenD]) (o.lenD _).symm, by rw [o.lenD, h]⟩,
      ⟨mv', _, putVector_right (by rw [h, hnl]) hnl.symm, by rw [h, hnl], hnp⟩⟩
  rightZ := by
    intro ctx mv l _ h
    rw [o.numZ] at h ⊢
    rcases Nat.eq_zero_or_pos o.nz with h0 | h0
    · rw [hz h0, vecStub, assertSize, h0]
      exact ⟨_, _, rfl, rfl⟩
    · rw [o.getInds h0]
      exact ⟨_, _, putVector_right (by rw [h, o.lenZ]) (o.lenZ _).symm, by rw [o.lenZ, h]⟩
  back := by
    intro ctx mv x mv' p h ctx' y hy
    rw [o.setStates hx] at h
    by_cases hl : x.length = o.nx
    · rw [hl, takeVector_eq (by omega)] at h
      cases h
      rw [o.getStates hx]
      have : o.states (o.upd mv.data (x.take o.nx)) = x := by
        rw [List.take_of_length_le (by omega)]; exact hu _ _ hl
      simp only
      rw [this, hy]
      exact ⟨_, putVector_right hy rfl⟩
    · obtain ⟨mv'', h'⟩ := takeVector_wrong (ctx := ctx) (mv := mv) (p := some x) (upd := o.upd mv.data) hl
      rw [h'] at h
      cases h

namespace StateSpace

/-- The dimensions are at most 5. -/
def InBounds (mv : MV F (Data F)) : Prop := inBounds mv.data = true

theorem length_elems (n : Nat) (v : Nat → F) : (elems n v).length = n := by simp [elems]

theorem vectors : (model : Model F (Data F)).Vectors InBounds where
  wrong := by
    intro ctx mv p n h
    have h : n ≠ mv.data.n := h
    simp only [model, assertNotNull, checkNx, if_pos h]
    refine ⟨?_, ?_, ?_, ?_⟩ <;> (split <;> exact ⟨_, rfl⟩)
  wrongZ := by
    intro ctx mv p n h
    have h : n ≠ 0 := h
    simp only [model, vecStub, assertSize, if_pos h]
    exact ⟨_, rfl⟩
  right := by
    intro ctx mv l hq h
    have h : l.length = mv.data.n := h
    have hq : inBounds mv.data = true := hq
    have hw : ∀ v : List F, v.length = l.length → writeN (some l) 0 v = .ret (some v) := by
      intro v hv
      rw [writeN_eq _ _ _ (by omega)]
      simp [hv]
    simp only [model, assertNotNull, checkNx, guarded, hq, if_true, calculateValues]
    simp only [Option.isNone_some, Bool.false_eq_true, if_false, ne_eq, not_true, Outcome.ret_bind]
    have he : elems mv.data.n (fun _ => (Arith.lit 1 : F)) = List.replicate l.length (Arith.lit 1) := by
      simp [elems, h, List.map_const']
    rw [show (calcValues mv).data.n = mv.data.n from rfl, he, hw _ (by rw [length_elems, h]),
      hw _ (by rw [length_elems, h]), hw _ (by simp), readN_eq _ _ _ (by omega)]
    exact ⟨⟨_, _, rfl, by rw [length_elems, h]⟩, ⟨_, _, rfl⟩, ⟨_, _, rfl, by rw [length_elems, h]⟩,
      ⟨_, _, rfl, by simp, fun v hv => ⟨1, by decide, (List.mem_replicate.1 hv).2⟩⟩⟩
  rightZ := by
    intro ctx mv l _ h
    have h : l.length = 0 := h
    exact ⟨_, _, rfl, rfl⟩
  back := by
    intro ctx mv x mv' p h ctx' y hy
    simp only [model, assertNotNull, checkNx, Option.isNone_some, Bool.false_eq_true, if_false] at h ⊢
    by_cases hl : x.length = mv.data.n
    · rw [if_neg (by simpa using hl)] at h
      unfold guarded at h
      split at h
      · rename_i hb
        rw [readN_eq _ _ _ (by omega), Outcome.ret_bind] at h
        cases h
        · simp only [ne_eq, hy, hl, not_true, if_false]
          have hb' : inBounds { mv.data with x := fillVector mv.data.n ((x.drop 0).take mv.data.n) mv.data.x } = true := hb
          rw [guarded, if_pos hb']
          have he : elems mv.data.n (fillVector mv.data.n ((x.drop 0).take mv.data.n) mv.data.x) = x := by
            apply List.ext_getElem
            · rw [length_elems, hl]
            · intro i h1 h2
              rw [length_elems] at h1
              simp [elems, fillVector, h1, List.getD_eq_getElem?_getD, h2]
          rw [he, writeN_eq _ _ _ (by omega)]
          simp only [hy, Nat.zero_add, Nat.sub_self, List.take_zero, List.nil_append,
            List.drop_of_length_le (Nat.le_of_eq hy), List.append_nil, Outcome.ret_bind]
          exact ⟨_, rfl⟩
      · cases h
    · rw [if_pos (by simpa using hl)] at h
      cases h

end StateSpace

end Verif
