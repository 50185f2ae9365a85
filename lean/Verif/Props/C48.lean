import Verif.Spec.Announced
import Verif.Spec.Modes2
import Verif.Spec.Modes3
import Verif.Lemmas.VectorsRef
import Verif.Lemmas.Modes2
import Verif.Lemmas.Modes3
import Verif.Examples

/-!
# C48: Model Exchange states round-trip
-/

set_option linter.unusedSectionVars false

namespace Verif
variable {F D : Type} [Arith F] [HasInf F]

namespace FMI2

theorem Announces.ref {m : Model F D} {nx nz} (h : Announces m nx nz) : RefFMU2 m ∧
    (∀ mv, m.numContinuousStates mv = nx) ∧ ∀ mv, m.numEventIndicators mv = nz := by
  cases h
  · exact ⟨.bouncingBall, fun _ => rfl, fun _ => rfl⟩
  · exact ⟨.dahlquist, fun _ => rfl, fun _ => rfl⟩
  · exact ⟨.feedthrough, fun _ => rfl, fun _ => rfl⟩
  · exact ⟨.resource _, fun _ => rfl, fun _ => rfl⟩
  · exact ⟨.stair, fun _ => rfl, fun _ => rfl⟩
  · exact ⟨.vanDerPol, fun _ => rfl, fun _ => rfl⟩

/-- Every FMI 2.0 Reference FMU is listed in `Announces`. -/
theorem Announces.all {m : Model F D} (h : RefFMU2 m) : ∃ nx nz, Announces m nx nz := by
  cases h
  · exact ⟨_, _, .bouncingBall⟩
  · exact ⟨_, _, .dahlquist⟩
  · exact ⟨_, _, .feedthrough⟩
  · exact ⟨_, _, .resource _⟩
  · exact ⟨_, _, .stair⟩
  · exact ⟨_, _, .vanDerPol⟩

theorem lift_error {α β : Type} {c : Comp F D} {mv' : MV F D} {r : Outcome (MV F D × Status × α)} {a : α}
    {out : α → β} (e : r = .ret (mv', .Error, a)) :
    callLast (c.lift r) out = .ret (Comp.setState { c with mv := mv' } .terminated, .Error, out a) := by
  subst e; rfl

theorem lift_ok {α β : Type} {c : Comp F D} {mv' : MV F D} {r : Outcome (MV F D × Status × α)} {a : α}
    {out : α → β} (e : r = .ret (mv', .OK, a)) :
    callLast (c.lift r) out = .ret ({ c with mv := mv' }, .OK, out a) := by
  subst e; rfl

theorem begin_error {β : Type} {mask : Nat} {name : String} {c : Comp F D} {stop : β}
    {k : Comp F D → Res F D β} (h : ∃ c' b, k c = .ret (c', .Error, b)) :
    ∃ c' b, FMI2.begin mask name c stop k = .ret (c', .Error, b) := by
  by_cases ha : allowed c.ctx mask = true
  · obtain ⟨c', b, h⟩ := h
    exact ⟨c', b, by rw [FMI2.begin, beginFunction, if_pos ha, h]⟩
  · rw [begin_refuse (by simpa using ha)]; exact ⟨_, _, rfl⟩

/-- **C48**, FMI 2.0, lengths: a call of `fmi2GetContinuousStates`, `fmi2SetContinuousStates`,
`fmi2GetDerivatives`, `fmi2GetNominalsOfContinuousStates` with any number of states but the announced
one is answered with `fmi2Error`; so is `fmi2GetEventIndicators` with any number of event indicators but
the announced one. -/
theorem C48_fmi2_length {m : Model F D} {nx nz : Nat} (hm : Announces m nx nz) (fuel : Nat)
    (w : World F D) :
    (∀ op p n, StateVector op p n → n ≠ nx → ∃ w' o, step m fuel w op = .ret (w', .Error, o)) ∧
    (∀ p n, n ≠ nz → ∃ w' o, step m fuel w (.getEventIndicators p n) = .ret (w', .Error, o)) := by
  obtain ⟨hr, hx, hz⟩ := hm.ref
  have V := hr.vectors
  refine ⟨?_, ?_⟩
  · intro op p n hop hn
    obtain ⟨⟨_, h1⟩, ⟨_, h2⟩, ⟨_, h3⟩, ⟨_, h4⟩⟩ := V.wrong (ctx := w.inst.ctx) (mv := w.inst.mv) (p := p) (n := n)
      (by rw [hx]; exact hn)
    cases hop
    · obtain ⟨c', b, e⟩ := begin_error (mask := MASK_GetEventIndicators) (name := "fmi2GetContinuousStates")
        (c := w.inst) (stop := p) (k := fun c => callLast (c.lift (m.getContinuousStates c.ctx c.mv p n)) id)
        ⟨_, _, lift_error h1⟩
      exact ⟨_, _, by simp only [step, getContinuousStates, World.run, e]; rfl⟩
    · obtain ⟨c', b, e⟩ := begin_error (mask := MASK_SetContinuousStates) (name := "fmi2SetContinuousStates")
        (c := w.inst) (stop := ()) (k := fun c => callLast (c.lift (m.setContinuousStates c.ctx c.mv p n)) fun _ => ())
        ⟨_, _, lift_error h2⟩
      exact ⟨_, _, by simp only [step, setContinuousStates, World.run, e]; rfl⟩
    · obtain ⟨c', b, e⟩ := begin_error (mask := MASK_GetDerivatives) (name := "fmi2GetDerivatives")
        (c := w.inst) (stop := p) (k := fun c => callLast (c.lift (m.getDerivatives c.ctx c.mv p n)) id)
        ⟨_, _, lift_error h3⟩
      exact ⟨_, _, by simp only [step, getDerivatives, World.run, e]; rfl⟩
    · obtain ⟨c', b, e⟩ := begin_error (mask := MASK_GetNominals) (name := "fmi2GetNominalsOfContinuousStates")
        (c := w.inst) (stop := p) (k := fun c => callLast (c.lift (m.getNominals c.ctx c.mv p n)) id)
        ⟨_, _, lift_error h4⟩
      exact ⟨_, _, by simp only [step, getNominals, World.run, e]; rfl⟩
  · intro p n hn
    obtain ⟨_, h1⟩ := V.wrongZ (ctx := w.inst.ctx) (mv := w.inst.mv) (p := p) (n := n) (by rw [hz]; exact hn)
    obtain ⟨c', b, e⟩ := begin_error (mask := MASK_GetEventIndicators) (name := "fmi2GetEventIndicators")
      (c := w.inst) (stop := p) (k := fun c => callLast (c.lift (m.getEventIndicators c.ctx c.mv p n)) id)
      ⟨_, _, lift_error h1⟩
    exact ⟨_, _, by simp only [step, getEventIndicators, World.run, e]; rfl⟩

/-- The calls in an allowed mode. -/
theorem begin_ok {β : Type} {mask : Nat} {name : String} {c : Comp F D} {stop : β}
    {k : Comp F D → Res F D β} (ha : allowed c.ctx mask = true) :
    FMI2.begin mask name c stop k = k c := by
  rw [FMI2.begin, beginFunction, if_pos ha]

/-- **C48**, FMI 2.0, lengths: the announced number, with an array of that length, is accepted in every
mode in which the function may be called. -/
theorem C48_fmi2_accepted {m : Model F D} {nx nz : Nat} (hm : Announces m nx nz) (fuel : Nat)
    (w : World F D) (l : List F) :
    (∀ op, StateVector op (some l) nx → l.length = nx → w.inst.ctx.state ∈ Spec.allowedIn op.fn →
      ∃ w' o, step m fuel w op = .ret (w', .OK, o)) ∧
    (l.length = nz → w.inst.ctx.state ∈ Spec.allowedIn .getEventIndicators →
      ∃ w' o, step m fuel w (.getEventIndicators (some l) nz) = .ret (w', .OK, o)) := by
  obtain ⟨hr, hx, hz⟩ := hm.ref
  have V := hr.vectors
  refine ⟨?_, ?_⟩
  · intro op hop hl hs
    obtain ⟨⟨_, _, h1, -⟩, ⟨_, _, h2⟩, ⟨_, _, h3, -⟩, ⟨_, _, h4, -⟩⟩ := V.right (ctx := w.inst.ctx)
      (mv := w.inst.mv) (l := l) trivial (by rw [hx]; exact hl)
    rw [hx] at h1 h2 h3 h4
    have ha := (allowed_fn w.inst.ctx op.fn).2 hs
    cases hop
    · exact ⟨_, _, by
        simp only [step, getContinuousStates, World.run]; rw [begin_ok (mask := MASK_GetEventIndicators) ha, lift_ok h1]; rfl⟩
    · exact ⟨_, _, by
        simp only [step, setContinuousStates, World.run]; rw [begin_ok (mask := MASK_SetContinuousStates) ha, lift_ok h2]; rfl⟩
    · exact ⟨_, _, by
        simp only [step, getDerivatives, World.run]; rw [begin_ok (mask := MASK_GetDerivatives) ha, lift_ok h3]; rfl⟩
    · exact ⟨_, _, by
        simp only [step, getNominals, World.run]; rw [begin_ok (mask := MASK_GetNominals) ha, lift_ok h4]; rfl⟩
  · intro hl hs
    obtain ⟨_, _, h1, -⟩ := V.rightZ (ctx := w.inst.ctx) (mv := w.inst.mv) (l := l) trivial
      (by rw [hz]; exact hl)
    rw [hz] at h1
    have ha := (allowed_fn w.inst.ctx .getEventIndicators).2 hs
    exact ⟨_, _, by simp only [step, getEventIndicators, World.run]; rw [begin_ok (mask := MASK_GetEventIndicators) ha, lift_ok h1]; rfl⟩

/-- **C48**, FMI 2.0, round trip: after a successful `fmi2SetContinuousStates(x)`,
`fmi2GetContinuousStates` into an array of the same length returns `x`. -/
theorem C48_fmi2_roundtrip {m : Model F D} (hm : RefFMU2 m) {fuel : Nat} {w w' : World F D} {x : List F} {o}
    (e : step m fuel w (.setContinuousStates (some x) x.length) = .ret (w', .OK, o)) (fuel' : Nat)
    (y : List F) (hy : y.length = x.length) :
    ∃ w'', step m fuel' w' (.getContinuousStates (some y) x.length) = .ret (w'', .OK, .reals (some x)) := by
  have V := hm.vectors
  by_cases ha : allowed w.inst.ctx MASK_SetContinuousStates = true
  · simp only [step, setContinuousStates, World.run] at e
    rw [begin_ok ha] at e
    obtain ⟨⟨c, s, a⟩, e1, e2⟩ := Outcome.bind_eq_ret.1 e
    cases e2
    obtain ⟨⟨c', s', a'⟩, e3, e4⟩ := Outcome.bind_eq_ret.1 e1
    obtain ⟨⟨mv', s'', a''⟩, e5, e6⟩ := Outcome.bind_eq_ret.1 e3
    cases e6
    cases s' <;> cases e4
    obtain ⟨mv'', hb⟩ := V.back e5 w.inst.ctx y hy
    rw [hy] at hb
    have hst : w.inst.ctx.state = .continuousTimeMode := by
      have := (allowed_fn w.inst.ctx .setContinuousStates).1 ha
      simpa [Spec.allowedIn] using this
    have ha' : allowed w.inst.ctx MASK_GetEventIndicators = true :=
      (allowed_fn w.inst.ctx .getContinuousStates).2 (by rw [hst]; simp [Spec.allowedIn])
    exact ⟨_, by
      simp only [step, getContinuousStates, World.run]
      rw [begin_ok (c := { w.inst with mv := mv' }) ha', lift_ok hb]
      rfl⟩
  · simp only [step, setContinuousStates, World.run] at e
    rw [begin_refuse (by simpa using ha)] at e
    cases e

/-- **C48**, FMI 2.0, nominals: `fmi2GetNominalsOfContinuousStates` returns positive literals. -/
theorem C48_fmi2_nominals {m : Model F D} {nx nz : Nat} (hm : Announces m nx nz) (fuel : Nat)
    (w : World F D) (l : List F) (hl : l.length = nx) (hs : w.inst.ctx.state ∈ Spec.allowedIn .getNominals) :
    ∃ w' vs, step m fuel w (.getNominals (some l) nx) = .ret (w', .OK, .reals (some vs)) ∧
      vs.length = nx ∧ ∀ v ∈ vs, ∃ q : Rat, 0 < q ∧ v = Arith.lit q := by
  obtain ⟨hr, hx, hz⟩ := hm.ref
  obtain ⟨-, -, -, ⟨_, vs, h4, h5, h6⟩⟩ := hr.vectors.right (ctx := w.inst.ctx)
    (mv := w.inst.mv) (l := l) trivial (by rw [hx]; exact hl)
  rw [hx] at h4
  have ha := (allowed_fn w.inst.ctx .getNominals).2 hs
  exact ⟨_, vs, by
    simp only [step, getNominals, World.run]
    rw [begin_ok (mask := MASK_GetNominals) ha, lift_ok h4]
    rfl, by rw [h5, hl], h6⟩

/-- Non-vacuity: in Continuous-Time Mode BouncingBall accepts a state vector. -/
example : (Ex.run2 BouncingBall.model .modelExchange [.enterInitializationMode, .exitInitializationMode,
    .enterContinuousTimeMode, .setContinuousStates (some [.fin 7, .fin (-3)]) 2,
    .getContinuousStates (some [.fin 0, .fin 0]) 2]).is (fun r => r.2.all (fun o => o.1 = .OK) &&
      r.2.getLast?.any fun o => o.2 = .reals (some [.fin 7, .fin (-3)])) = true := by decide +kernel

end FMI2

namespace FMI3

theorem Announces.ref {m : Model F D} {nx nz} (h : Announces m nx nz) : RefFMU3 m ∧
    (∀ mv, m.numContinuousStates mv = nx) ∧ ∀ mv, m.numEventIndicators mv = nz := by
  cases h
  · exact ⟨.bouncingBall, fun _ => rfl, fun _ => rfl⟩
  · exact ⟨.clocks, fun _ => rfl, fun _ => rfl⟩
  · exact ⟨.dahlquist, fun _ => rfl, fun _ => rfl⟩
  · exact ⟨.feedthrough, fun _ => rfl, fun _ => rfl⟩
  · exact ⟨.resource _, fun _ => rfl, fun _ => rfl⟩
  · exact ⟨.roberts, fun _ => rfl, fun _ => rfl⟩
  · exact ⟨.stair, fun _ => rfl, fun _ => rfl⟩
  · exact ⟨.vanDerPol, fun _ => rfl, fun _ => rfl⟩

theorem begin_error {β : Type} {mask : Nat} {name : String} {c : Comp F D} {stop : β}
    {k : Comp F D → Res F D β} (h : ∃ c' b, k c = .ret (c', .Error, b)) :
    ∃ c' b, FMI3.begin mask name c stop k = .ret (c', .Error, b) := by
  by_cases ha : allowed c.ctx mask = true
  · obtain ⟨c', b, h⟩ := h
    exact ⟨c', b, by rw [FMI3.begin, beginFunction, if_pos ha, h]⟩
  · rw [begin_refuse (by simpa using ha)]; exact ⟨_, _, rfl⟩

theorem begin_ok {β : Type} {mask : Nat} {name : String} {c : Comp F D} {stop : β}
    {k : Comp F D → Res F D β} (ha : allowed c.ctx mask = true) :
    FMI3.begin mask name c stop k = k c := by
  rw [FMI3.begin, beginFunction, if_pos ha]

/-- What `fmi3GetNumberOfContinuousStates` and `fmi3GetNumberOfEventIndicators` report. -/
theorem reports_nx {m : Model F D} {w w' : World F D} {fuel p n}
    (e : step m fuel w (.getNumberOfContinuousStates p) = .ret (w', .OK, .size (some n))) :
    w' = w ∧ n = m.numContinuousStates w.inst.mv := by
  simp only [step, getNumberOfContinuousStates, World.run] at e
  by_cases ha : allowed w.inst.ctx MASK_AnyState = true
  · rw [begin_ok ha] at e
    cases p <;> cases e
    exact ⟨rfl, rfl⟩
  · rw [begin_refuse (by simpa using ha)] at e
    cases e

theorem reports_nz {m : Model F D} {w w' : World F D} {fuel p n}
    (e : step m fuel w (.getNumberOfEventIndicators p) = .ret (w', .OK, .size (some n))) :
    w' = w ∧ n = m.numEventIndicators w.inst.mv := by
  simp only [step, getNumberOfEventIndicators, World.run] at e
  by_cases ha : allowed w.inst.ctx MASK_AnyState = true
  · rw [begin_ok ha] at e
    cases p <;> cases e
    exact ⟨rfl, rfl⟩
  · rw [begin_refuse (by simpa using ha)] at e
    cases e

/-- **C48**, FMI 3.0: the number of states and event indicators that an FMU other than StateSpace
reports are those of its model description. -/
theorem C48_fmi3_announced {m : Model F D} {nx nz : Nat} (hm : Announces m nx nz) (fuel : Nat)
    (w : World F D) (hs : w.inst.ctx.state ∈ Spec.anyMode) (a : Nat) :
    step m fuel w (.getNumberOfContinuousStates (some a)) = .ret (w, .OK, .size (some nx)) ∧
    step m fuel w (.getNumberOfEventIndicators (some a)) = .ret (w, .OK, .size (some nz)) := by
  obtain ⟨hr, hx, hz⟩ := hm.ref
  have ha : allowed w.inst.ctx MASK_AnyState = true :=
    (allowed_fn w.inst.ctx .getNumberOfContinuousStates).2 hs
  refine ⟨?_, ?_⟩
  · simp only [step, getNumberOfContinuousStates, World.run]
    rw [begin_ok ha, hx]; rfl
  · simp only [step, getNumberOfEventIndicators, World.run]
    rw [begin_ok ha, hz]; rfl

/-- **C48**, FMI 3.0, lengths of state vectors: when `fmi3GetNumberOfContinuousStates` reports `nx`, a
call of `fmi3GetContinuousStates`, `fmi3SetContinuousStates`, `fmi3GetContinuousStateDerivatives`,
`fmi3GetNominalsOfContinuousStates` with any other number of states is answered with `fmi3Error`. -/
theorem C48_fmi3_length {m : Model F D} (hm : RefFMU3 m) {f : Nat} {w w' : World F D} {a : Option Nat} {nx : Nat}
    (e : step m f w (.getNumberOfContinuousStates a) = .ret (w', .OK, .size (some nx))) (fuel : Nat) :
    ∀ op p n, StateVector op p n → n ≠ nx → ∃ w'' o, step m fuel w' op = .ret (w'', .Error, o) := by
  obtain ⟨Q, V, -⟩ := hm.vectors
  obtain ⟨rfl, rfl⟩ := reports_nx e
  intro op p n hop hn
  obtain ⟨⟨_, h1⟩, ⟨_, h2⟩, ⟨_, h3⟩, ⟨_, h4⟩⟩ := V.wrong (ctx := w'.inst.ctx) (mv := w'.inst.mv) (p := p) (n := n) hn
  cases hop
  · obtain ⟨c', b, e⟩ := begin_error (mask := MASK_GetContinuousStateDerivatives) (name := "fmi3GetContinuousStates")
      (c := w'.inst) (stop := p) (k := fun c => callLast (c.lift (m.getContinuousStates c.ctx c.mv p n)) id)
      ⟨_, _, FMI2.lift_error h1⟩
    exact ⟨_, _, by simp only [step, getContinuousStates, World.run, e]; rfl⟩
  · obtain ⟨c', b, e⟩ := begin_error (mask := MASK_SetContinuousStates) (name := "fmi3SetContinuousStates")
      (c := w'.inst) (stop := ()) (k := fun c => callLast (c.lift (m.setContinuousStates c.ctx c.mv p n)) fun _ => ())
      ⟨_, _, FMI2.lift_error h2⟩
    exact ⟨_, _, by simp only [step, setContinuousStates, World.run, e]; rfl⟩
  · obtain ⟨c', b, e⟩ := begin_error (mask := MASK_GetContinuousStateDerivatives) (name := "fmi3GetContinuousStateDerivatives")
      (c := w'.inst) (stop := p) (k := fun c => callLast (c.lift (m.getDerivatives c.ctx c.mv p n)) id)
      ⟨_, _, FMI2.lift_error h3⟩
    exact ⟨_, _, by simp only [step, getDerivatives, World.run, e]; rfl⟩
  · obtain ⟨c', b, e⟩ := begin_error (mask := MASK_GetContinuousStateDerivatives) (name := "fmi3GetNominalsOfContinuousStates")
      (c := w'.inst) (stop := p) (k := fun c => callLast (c.lift (m.getNominals c.ctx c.mv p n)) id)
      ⟨_, _, FMI2.lift_error h4⟩
    exact ⟨_, _, by simp only [step, getNominals, World.run, e]; rfl⟩

/-- **C48**, FMI 3.0, lengths of event indicator vectors. -/
theorem C48_fmi3_length_indicators {m : Model F D} (hm : RefFMU3 m) {f : Nat} {w w' : World F D}
    {a : Option Nat} {nz : Nat}
    (e : step m f w (.getNumberOfEventIndicators a) = .ret (w', .OK, .size (some nz))) (fuel : Nat) (p : Ptr F)
    (n : Nat) (hn : n ≠ nz) : ∃ w'' o, step m fuel w' (.getEventIndicators p n) = .ret (w'', .Error, o) := by
  obtain ⟨Q, V, -⟩ := hm.vectors
  obtain ⟨rfl, rfl⟩ := reports_nz e
  obtain ⟨_, h1⟩ := V.wrongZ (ctx := w'.inst.ctx) (mv := w'.inst.mv) (p := p) (n := n) hn
  obtain ⟨c', b, e⟩ := begin_error (mask := MASK_GetContinuousStateDerivatives) (name := "fmi3GetEventIndicators")
    (c := w'.inst) (stop := p) (k := fun c => callLast (c.lift (m.getEventIndicators c.ctx c.mv p n)) id)
    ⟨_, _, FMI2.lift_error h1⟩
  exact ⟨_, _, by simp only [step, getEventIndicators, World.run, e]; rfl⟩

/-- **C48**, FMI 3.0, lengths: the reported numbers, with arrays of that length, are accepted by every
reachable instance in every mode in which the function may be called. -/
theorem C48_fmi3_accepted {m : Model F D} (hm : RefFMU3 m) {t : IType} {f g : Nat} {w : World F D}
    (hw : Reachable m t w) {a b : Option Nat} {nx nz : Nat}
    (ex : step m f w (.getNumberOfContinuousStates a) = .ret (w, .OK, .size (some nx)))
    (ez : step m g w (.getNumberOfEventIndicators b) = .ret (w, .OK, .size (some nz))) (fuel : Nat) (l : List F) :
    (∀ op, StateVector op (some l) nx → l.length = nx → w.inst.ctx.state ∈ Spec.allowedIn op.fn →
      ∃ w' o, step m fuel w op = .ret (w', .OK, o)) ∧
    (l.length = nz → w.inst.ctx.state ∈ Spec.allowedIn .getEventIndicators →
      ∃ w' o, step m fuel w (.getEventIndicators (some l) nz) = .ret (w', .OK, o)) := by
  obtain ⟨Q, V, hQ⟩ := hm.vectors
  obtain ⟨-, rfl⟩ := reports_nx ex
  obtain ⟨-, rfl⟩ := reports_nz ez
  refine ⟨?_, ?_⟩
  · intro op hop hl hs
    obtain ⟨⟨_, _, h1, -⟩, ⟨_, _, h2⟩, ⟨_, _, h3, -⟩, ⟨_, _, h4, -⟩⟩ := V.right (ctx := w.inst.ctx)
      (mv := w.inst.mv) (l := l) (hQ _ _ hw) hl
    have ha := (allowed_fn w.inst.ctx op.fn).2 hs
    cases hop
    · exact ⟨_, _, by
        simp only [step, getContinuousStates, World.run]; rw [begin_ok (mask := MASK_GetContinuousStateDerivatives) ha, FMI2.lift_ok h1]; rfl⟩
    · exact ⟨_, _, by
        simp only [step, setContinuousStates, World.run]; rw [begin_ok (mask := MASK_SetContinuousStates) ha, FMI2.lift_ok h2]; rfl⟩
    · exact ⟨_, _, by
        simp only [step, getDerivatives, World.run]; rw [begin_ok (mask := MASK_GetContinuousStateDerivatives) ha, FMI2.lift_ok h3]; rfl⟩
    · exact ⟨_, _, by
        simp only [step, getNominals, World.run]; rw [begin_ok (mask := MASK_GetContinuousStateDerivatives) ha, FMI2.lift_ok h4]; rfl⟩
  · intro hl hs
    obtain ⟨_, _, h1, -⟩ := V.rightZ (ctx := w.inst.ctx) (mv := w.inst.mv) (l := l) (hQ _ _ hw) hl
    have ha := (allowed_fn w.inst.ctx .getEventIndicators).2 hs
    exact ⟨_, _, by simp only [step, getEventIndicators, World.run]; rw [begin_ok (mask := MASK_GetContinuousStateDerivatives) ha, FMI2.lift_ok h1]; rfl⟩

/-- **C48**, FMI 3.0, round trip. -/
theorem C48_fmi3_roundtrip {m : Model F D} (hm : RefFMU3 m) {fuel : Nat} {w w' : World F D} {x : List F} {o}
    (e : step m fuel w (.setContinuousStates (some x) x.length) = .ret (w', .OK, o)) (fuel' : Nat)
    (y : List F) (hy : y.length = x.length) :
    ∃ w'', step m fuel' w' (.getContinuousStates (some y) x.length) = .ret (w'', .OK, .reals (some x)) := by
  obtain ⟨Q, V, -⟩ := hm.vectors
  by_cases ha : allowed w.inst.ctx MASK_SetContinuousStates = true
  · simp only [step, setContinuousStates, World.run] at e
    rw [begin_ok ha] at e
    obtain ⟨⟨c, s, a⟩, e1, e2⟩ := Outcome.bind_eq_ret.1 e
    cases e2
    obtain ⟨⟨c', s', a'⟩, e3, e4⟩ := Outcome.bind_eq_ret.1 e1
    obtain ⟨⟨mv', s'', a''⟩, e5, e6⟩ := Outcome.bind_eq_ret.1 e3
    cases e6
    cases s' <;> cases e4
    obtain ⟨mv'', hb⟩ := V.back e5 w.inst.ctx y hy
    rw [hy] at hb
    have hst : w.inst.ctx.state = .continuousTimeMode := by
      have := (allowed_fn w.inst.ctx .setContinuousStates).1 ha
      simpa [Spec.allowedIn] using this
    have ha' : allowed w.inst.ctx MASK_GetContinuousStateDerivatives = true :=
      (allowed_fn w.inst.ctx .getContinuousStates).2 (by rw [hst]; simp [Spec.allowedIn])
    exact ⟨_, by
      simp only [step, getContinuousStates, World.run]
      rw [begin_ok (c := { w.inst with mv := mv' }) ha', FMI2.lift_ok hb]
      rfl⟩
  · simp only [step, setContinuousStates, World.run] at e
    rw [begin_refuse (by simpa using ha)] at e
    cases e

/-- **C48**, FMI 3.0, nominals: `fmi3GetNominalsOfContinuousStates` returns positive literals. -/
theorem C48_fmi3_nominals {m : Model F D} (hm : RefFMU3 m) {t : IType} {f : Nat} {w : World F D}
    (hw : Reachable m t w) {a : Option Nat} {nx : Nat}
    (ex : step m f w (.getNumberOfContinuousStates a) = .ret (w, .OK, .size (some nx))) (fuel : Nat)
    (l : List F) (hl : l.length = nx) (hs : w.inst.ctx.state ∈ Spec.allowedIn .getNominals) :
    ∃ w' vs, step m fuel w (.getNominals (some l) nx) = .ret (w', .OK, .reals (some vs)) ∧
      vs.length = nx ∧ ∀ v ∈ vs, ∃ q : Rat, 0 < q ∧ v = Arith.lit q := by
  obtain ⟨Q, V, hQ⟩ := hm.vectors
  obtain ⟨-, rfl⟩ := reports_nx ex
  obtain ⟨-, -, -, ⟨_, vs, h4, h5, h6⟩⟩ := V.right (ctx := w.inst.ctx)
    (mv := w.inst.mv) (l := l) (hQ _ _ hw) hl
  have ha := (allowed_fn w.inst.ctx .getNominals).2 hs
  exact ⟨_, vs, by
    simp only [step, getNominals, World.run]
    rw [begin_ok (mask := MASK_GetContinuousStateDerivatives) ha, FMI2.lift_ok h4]
    rfl, by rw [h5, hl], h6⟩

/-- Non-vacuity: StateSpace with three states in Continuous-Time Mode; Roberts reports nominals. -/
example : (Ex.runME3 StateSpace.model [.enterInitializationMode (.fin 0) false (.fin 0), .exitInitializationMode,
    .enterContinuousTimeMode, .getNumberOfContinuousStates (some 0),
    .setContinuousStates (some [.fin 7, .fin (-3), .fin 2]) 3,
    .getContinuousStates (some [.fin 0, .fin 0, .fin 0]) 3]).is (fun r => r.2.all (fun o => o.1 = .OK) &&
      r.2.getLast?.any (fun o => o.2 = .reals (some [.fin 7, .fin (-3), .fin 2])) &&
      (r.2[3]?.any fun o => o.2 = .size (some 3))) = true := by decide +kernel

example : (Ex.runME3 Roberts.model [.enterInitializationMode (.fin 0) false (.fin 0), .exitInitializationMode,
    .getNumberOfContinuousStates (some 0), .getNominals (some [.fin 0, .fin 0]) 2]).is
      (fun r => r.2.all (fun o => o.1 = .OK) &&
      r.2.getLast?.any (fun o => o.2 = .reals (some [.fin (1/10000), .fin (1/100)]))) = true := by decide +kernel

end FMI3
end Verif
