import Verif.Importer.Euler
import Verif.Lemmas.Machine

/-!
# The importer for Model Exchange as forward Euler method

`Laws`: what the functions of an instance do. `pass_inv`: what a pass through the loop of the importer does.
-/

set_option linter.unusedSectionVars false

namespace Verif.Importer.Euler
open Verif
variable {F D W β : Type} [Arith F] [HasInf F] {m : Model F D}

theorem CALL_eq {s s' : Sim F W} {r : Outcome (W × Status × β)} {k : Sim F W → β → Result F W}
    (h : CALL s r k = .ret (true, s')) : ∃ w b, r = .ret (w, .OK, b) ∧ k { s with w := w } b = .ret (true, s') := by
  unfold CALL at h
  obtain ⟨⟨w, st, b⟩, e, h⟩ := Outcome.bind_eq_ret.1 h
  simp only at h
  split at h
  · next hs => subst hs; exact ⟨w, b, e, h⟩
  · cases h

/-- The data and the time are the same. -/
structure Near (o : Ode m) (c c' : Comp F D) : Prop where
  data : o.calc' c'.mv.data = o.calc' c.mv.data
  time : c'.ctx.time = c.ctx.time

theorem Near.trans {o : Ode m} {a b c : Comp F D} (h : Near o a b) (k : Near o b c) : Near o a c :=
  ⟨k.data.trans h.data, k.time.trans h.time⟩

/-- What successful calls of the functions do. `ev` is the effect of an event, `I` holds for the reported event info,
`Rd` is kept by all calls. The variables are recorded for data and times with `K`. -/
structure Laws (o : Ode m) (api : Api F W) (inst : W → Comp F D) (Rd : W → Prop) (ev : D → D) (I : EventInfo F → Prop)
    (K : D → F → Prop := fun _ _ => True) : Prop where
  getDerivatives : ∀ {w l w' l'}, 0 < o.nx → Rd w → l.length = o.nx → api.getDerivatives w l o.nx = .ret (w', .OK, l') →
    Near o (inst w) (inst w') ∧ Rd w' ∧ l' = o.derivs (inst w).mv.data
  getStates : ∀ {w l w' l'}, 0 < o.nx → Rd w → l.length = o.nx → api.getStates w l o.nx = .ret (w', .OK, l') →
    Near o (inst w) (inst w') ∧ Rd w' ∧ l' = o.states (inst w).mv.data
  getIndicators : ∀ {w l w' l'}, 0 < o.nz → Rd w → l.length = o.nz → api.getIndicators w l o.nz = .ret (w', .OK, l') →
    Near o (inst w) (inst w') ∧ Rd w' ∧ l' = o.inds (inst w).mv.data
  getNominals : ∀ {w l w' l'}, Rd w → api.getNominals w l o.nx = .ret (w', .OK, l') → Near o (inst w) (inst w') ∧ Rd w'
  setStates : ∀ {w l w'}, 0 < o.nx → Rd w → l.length = o.nx → api.setStates w l o.nx = .ret (w', .OK, ()) →
    (inst w').mv.data = o.upd (inst w).mv.data l ∧ (inst w').ctx.time = (inst w).ctx.time ∧ Rd w'
  setTime : ∀ {w t w'}, Rd w → api.setTime w t = .ret (w', .OK, ()) →
    o.calc' (inst w').mv.data = o.calc' (inst w).mv.data ∧ (inst w').ctx.time = t ∧ Rd w'
  enterEventMode : ∀ {w w'}, Rd w → api.enterEventMode w = .ret (w', .OK, ()) → Near o (inst w) (inst w') ∧ Rd w'
  enterContinuousTimeMode : ∀ {w w'}, Rd w → api.enterContinuousTimeMode w = .ret (w', .OK, ()) →
    Near o (inst w) (inst w') ∧ Rd w'
  completed : ∀ {w a b w' r}, Rd w → api.completed w a b = .ret (w', .OK, r) →
    Near o (inst w) (inst w') ∧ Rd w' ∧ r = (false, false)
  record : ∀ {w w' d}, Rd w → o.calc' (inst w).mv.data = o.calc' d → K d (inst w).ctx.time → api.record w = .ret (w', .OK, ()) →
    Near o (inst w) (inst w') ∧ Rd w'
  update : ∀ {w i w' i' d}, Rd w → o.calc' (inst w).mv.data = o.calc' d → api.update w i = .ret (w', .OK, i') →
    o.calc' (inst w').mv.data = o.calc' (ev d) ∧ (inst w').ctx.time = (inst w).ctx.time ∧ Rd w' ∧ I i' ∧
      (i'.valuesChanged = false → o.states (ev d) = o.states d)
  idem : ∀ d, ev (ev d) = ev d
  info : ∀ {i : EventInfo F} b, I i → I { i with terminateSimulation := b }
  states_upd : ∀ d l, l.length = o.nx → o.states (o.upd d l) = l

/-- The configuration of the importer belongs to the FMU. -/
structure Config.For (cfg : Config F) (o : Ode m) : Prop where
  nx : cfg.nx = o.nx
  nz : cfg.nz = o.nz
  h : cfg.h = m.h

/-- The arrays of the importer are as long as declared. -/
structure Arrays (o : Ode m) (s : Sim F W) : Prop where
  x : s.x.length = o.nx
  derX : s.derX.length = o.nx
  z : s.z.length = o.nz
  previousZ : s.previousZ.length = o.nz

/-- The importer and the instance are at the data `d`. -/
structure At (o : Ode m) (inst : W → Comp F D) (Rd : W → Prop) (s : Sim F W) (d : D) : Prop where
  data : o.calc' (inst s.w).mv.data = o.calc' d
  time : (inst s.w).ctx.time = s.time
  rd : Rd s.w
  arr : Arrays o s

/-- The importer knows states and event indicators. -/
structure Inv (o : Ode m) (inst : W → Comp F D) (Rd : W → Prop) (s : Sim F W) (d : D) : Prop
    extends At o inst Rd s d where
  x : s.x = o.states d
  prevZ : s.previousZ = o.inds d

variable {o : Ode m} {api : Api F W} {inst : W → Comp F D} {Rd : W → Prop} {ev : D → D} {I : EventInfo F → Prop}
  {K : D → F → Prop} {cfg : Config F}

theorem states_congr {d d' : D} (h : o.calc' d = o.calc' d') : o.states d = o.states d' := by
  rw [← o.states_calc, h, o.states_calc]
theorem derivs_congr {d d' : D} (h : o.calc' d = o.calc' d') : o.derivs d = o.derivs d' := by
  rw [← o.derivs_calc, h, o.derivs_calc]
theorem inds_congr {d d' : D} (h : o.calc' d = o.calc' d') : o.inds d = o.inds d' := by
  rw [← o.inds_calc, h, o.inds_calc]
theorem upd_congr {d d' : D} (h : o.calc' d = o.calc' d') (l : List F) : o.calc' (o.upd d l) = o.calc' (o.upd d' l) := by
  rw [← o.upd_calc, h, o.upd_calc]

theorem At.near {s : Sim F W} {d : D} (h : At o inst Rd s d) {w : W} (n : Near o (inst s.w) (inst w) ∧ Rd w) :
    At o inst Rd { s with w := w } d :=
  ⟨n.1.data.trans h.data, n.1.time.trans h.time, n.2, ⟨h.arr.x, h.arr.derX, h.arr.z, h.arr.previousZ⟩⟩

/-- The variables of the importer that calls do not change. -/
structure Alone (s s' : Sim F W) : Prop where
  time : s'.time = s.time
  step : s'.step = s.step
  x : s'.x = s.x
  derX : s'.derX = s.derX
  z : s'.z = s.z
  previousZ : s'.previousZ = s.previousZ
  stateEvent : s'.stateEvent = s.stateEvent

theorem iterate_eq (L : Laws o api inst Rd ev I K) {k : Sim F W → Bool → Bool → Result F W} {fuel : Nat} :
    ∀ {s s' : Sim F W} {d : D} {nom val}, iterate api k fuel s nom val = .ret (true, s') → At o inst Rd s d →
    ∃ s1 nom1 val1, k s1 nom1 val1 = .ret (true, s') ∧ At o inst Rd s1 (ev d) ∧ I s1.info ∧ Alone s s1 ∧
      (val1 = false → val = false ∧ o.states (ev d) = o.states d) ∧ s1.stepEvent = s.stepEvent := by
  induction fuel with
  | zero => intro s s' d nom val h; cases h
  | succ fuel ih =>
    intro s s' d nom val h ha
    unfold iterate at h
    obtain ⟨w, i, e, h⟩ := CALL_eq h
    obtain ⟨h1, h2, h3, h4, h5⟩ := L.update ha.rd ha.data e
    simp only at h
    have hat : At o inst Rd { s with w := w, info := i } (ev d) :=
      ⟨h1, h2.trans ha.time, h3, ⟨ha.arr.x, ha.arr.derX, ha.arr.z, ha.arr.previousZ⟩⟩
    split at h
    · cases h
    · split at h
      · obtain ⟨s1, nom1, val1, k1, k2, k3, k4, k5, k6⟩ := ih h hat
        rw [L.idem] at k2 k5
        refine ⟨s1, nom1, val1, k1, k2, k3, ⟨k4.time, k4.step, k4.x, k4.derX, k4.z, k4.previousZ, k4.stateEvent⟩, ?_, k6⟩
        intro hv
        obtain ⟨hv, -⟩ := k5 hv
        simp only [Bool.or_eq_false_iff] at hv
        exact ⟨hv.1, h5 hv.2⟩
      · exact ⟨_, _, _, h, hat, h4, ⟨rfl, rfl, rfl, rfl, rfl, rfl, rfl⟩, fun hv => by
          simp only [Bool.or_eq_false_iff] at hv; exact ⟨hv.1, h5 hv.2⟩, rfl⟩

/-- Reading the states. -/
theorem getStates_at (L : Laws o api inst Rd ev I K) {s : Sim F W} {d : D} {w l} (h : At o inst Rd s d) (hx : 0 < o.nx)
    (e : api.getStates s.w s.x o.nx = .ret (w, .OK, l)) : At o inst Rd { s with w := w, x := l } d ∧ l = o.states d := by
  obtain ⟨h1, h2, h3⟩ := L.getStates hx h.rd h.arr.x e
  have := h.near ⟨h1, h2⟩
  rw [states_congr h.data] at h3
  exact ⟨⟨this.data, this.time, this.rd, ⟨by rw [h3]; exact o.lenX d, this.arr.derX, this.arr.z, this.arr.previousZ⟩⟩, h3⟩

/-- The initialisation of the importer. -/
theorem initial_inv (L : Laws o api inst Rd ev I K) (hc : cfg.For o) (hx : 0 < o.nx) {fuel : Nat} {s s' : Sim F W} {d : D}
    (h : initial api cfg fuel s = .ret (true, s')) (ha : At o inst Rd s d) (hz : o.nz = 0 → s.previousZ = [])
    (hK : K (ev d) s.time) :
    Inv o inst Rd s' (ev d) ∧ I s'.info ∧ s'.step = 0 ∧ s'.time = s.time ∧ s'.stateEvent = s.stateEvent ∧
      s'.stepEvent = s.stepEvent := by
  unfold initial at h
  obtain ⟨s1, -, -, h, ha, hi, al, -, hse⟩ := iterate_eq L h ha
  obtain ⟨w, u, e, h⟩ := CALL_eq h
  have ha := ha.near (L.enterContinuousTimeMode ha.rd e)
  simp only [hc.nx, hc.nz, gt_iff_lt, if_pos hx] at h
  have key : ∀ s1 : Sim F W, At o inst Rd s1 (ev d) → s1.previousZ = o.inds (ev d) → I s1.info → s1.time = s.time →
      s1.stateEvent = s.stateEvent → s1.stepEvent = s.stepEvent →
      (CALL s1 (api.getStates s1.w s1.x o.nx) fun s x => CALL { s with x := x } (api.getNominals s.w s.nominals o.nx) fun s n =>
        CALL { s with nominals := n } (api.record s.w) fun s _ => .ret (true, { s with step := 0 })) = .ret (true, s') →
      Inv o inst Rd s' (ev d) ∧ I s'.info ∧ s'.step = 0 ∧ s'.time = s.time ∧ s'.stateEvent = s.stateEvent ∧
        s'.stepEvent = s.stepEvent := by
    intro s1 ha hz hi ht h1 h2 h
    obtain ⟨w, l, e, h⟩ := CALL_eq h
    obtain ⟨ha, hl⟩ := getStates_at L ha hx e
    obtain ⟨w, l, e, h⟩ := CALL_eq h
    have ha := ha.near (L.getNominals ha.rd e)
    obtain ⟨w, l, e, h⟩ := CALL_eq h
    have ha := ha.near (L.record ha.rd ha.data (by rw [ha.time]; exact ht ▸ hK) e)
    cases h
    exact ⟨⟨⟨ha.data, ha.time, ha.rd, ⟨ha.arr.x, ha.arr.derX, ha.arr.z, ha.arr.previousZ⟩⟩, hl, hz⟩, hi, rfl, ht, h1, h2⟩
  split at h
  · next hpos =>
    obtain ⟨w, l, e, h⟩ := CALL_eq h
    obtain ⟨n1, n2, n3⟩ := L.getIndicators hpos ha.rd ha.arr.previousZ e
    have hb := ha.near ⟨n1, n2⟩
    rw [inds_congr ha.data] at n3
    refine key { s1 with w := w, previousZ := l } ?_ n3 hi al.time al.stateEvent hse h
    exact ⟨hb.data, hb.time, hb.rd, ⟨hb.arr.x, hb.arr.derX, hb.arr.z, by rw [n3]; exact o.lenZ _⟩⟩
  · next hn =>
    have hn : o.nz = 0 := by omega
    refine key { s1 with w := w } ha ?_ hi al.time al.stateEvent hse h
    show s1.previousZ = _
    rw [al.previousZ, hz hn, List.eq_nil_of_length_eq_zero ((o.lenZ _).trans hn)]

/-- The handling of an event. -/
theorem handle_inv (L : Laws o api inst Rd ev I K) (hc : cfg.For o) (hx : 0 < o.nx) {fuel : Nat} {s s' : Sim F W} {d : D}
    {k : Sim F W → Result F W} (h : handle api cfg fuel s k = .ret (true, s')) (ha : At o inst Rd s d) (hs : s.x = o.states d)
    (hK : K (ev d) s.time) :
    ∃ s1, k s1 = .ret (true, s') ∧ At o inst Rd s1 (ev d) ∧ s1.x = o.states (ev d) ∧ s1.previousZ = s.previousZ ∧ I s1.info ∧
      s1.time = s.time ∧ s1.step = s.step ∧ s1.stateEvent = s.stateEvent := by
  unfold handle at h
  obtain ⟨w, u, e, h⟩ := CALL_eq h
  have ha := ha.near (L.enterEventMode ha.rd e)
  obtain ⟨s1, nom, val, h, ha, hi, al, hv, -⟩ := iterate_eq L h ha
  obtain ⟨w, u, e, h⟩ := CALL_eq h
  have ha := ha.near (L.enterContinuousTimeMode ha.rd e)
  obtain ⟨w, u, e, h⟩ := CALL_eq h
  have ha := ha.near (L.record ha.rd ha.data (by rw [ha.time]; exact al.time.symm ▸ hK) e)
  simp only [hc.nx, gt_iff_lt, hx, decide_true, Bool.true_and] at h
  have key : ∀ s1 : Sim F W, At o inst Rd s1 (ev d) → s1.x = o.states (ev d) → s1.previousZ = s.previousZ → I s1.info →
      s1.time = s.time → s1.step = s.step → s1.stateEvent = s.stateEvent →
      (if nom = true then CALL s1 (api.getNominals s1.w s1.nominals o.nx) fun s n => k { s with nominals := n } else k s1) =
        .ret (true, s') →
      ∃ s1, k s1 = .ret (true, s') ∧ At o inst Rd s1 (ev d) ∧ s1.x = o.states (ev d) ∧ s1.previousZ = s.previousZ ∧ I s1.info ∧
        s1.time = s.time ∧ s1.step = s.step ∧ s1.stateEvent = s.stateEvent := by
    intro s1 ha hx hz hi ht h1 h2 h
    split at h
    · obtain ⟨w, l, e, h⟩ := CALL_eq h
      have hb := ha.near (L.getNominals ha.rd e)
      exact ⟨_, h, ⟨hb.data, hb.time, hb.rd, ⟨hb.arr.x, hb.arr.derX, hb.arr.z, hb.arr.previousZ⟩⟩, hx, hz, hi, ht, h1, h2⟩
    · exact ⟨s1, h, ha, hx, hz, hi, ht, h1, h2⟩
  split at h
  · obtain ⟨w, l, e, h⟩ := CALL_eq h
    obtain ⟨ha, hl⟩ := getStates_at L ha hx e
    exact key _ ha hl al.previousZ hi al.time al.step al.stateEvent h
  · next hf =>
    refine key _ ha ?_ al.previousZ hi al.time al.step al.stateEvent h
    show s1.x = _
    rw [al.x, (hv (by simpa using hf)).2]
    exact hs

/-- The end of a pass. -/
theorem finish_inv (L : Laws o api inst Rd ev I K) {s s' : Sim F W} {d : D} (h : finish api cfg s = .ret (true, s'))
    (ha : Inv o inst Rd s d) (hi : I s.info) (hK : K d s.time) : Inv o inst Rd s' d ∧ I s'.info ∧ s'.time = s.time ∧ s'.step = s.step ∧
      s'.stateEvent = s.stateEvent ∧ s'.stepEvent = false := by
  unfold finish at h
  obtain ⟨w, b, e, h⟩ := CALL_eq h
  obtain ⟨h1, h2, rfl⟩ := L.completed ha.rd e
  have hb := ha.toAt.near ⟨h1, h2⟩
  simp only at h
  split at h
  · cases h
  · obtain ⟨w, b, e, h⟩ := CALL_eq h
    have hb := At.near (s := { s with w := _, stepEvent := false, info := { s.info with terminateSimulation := false } })
      (d := d) (o := o) (inst := inst) (Rd := Rd)
      ⟨hb.data, hb.time, hb.rd, ⟨hb.arr.x, hb.arr.derX, hb.arr.z, hb.arr.previousZ⟩⟩ (L.record hb.rd hb.data (by rw [hb.time]; exact hK) e)
    cases h
    exact ⟨⟨hb, ha.x, ha.prevZ⟩, L.info _ hi, rfl, rfl, rfl, rfl⟩

/-- The integrator step and the search for state events. -/
theorem advance_inv (L : Laws o api inst Rd ev I K) (hc : cfg.For o) (hx : 0 < o.nx) {occurred : Bool} {s s' : Sim F W} {d : D}
    (h : advance api cfg occurred s = .ret (true, s')) (ha : At o inst Rd s d) (hs : s.x = o.states d) (hi : I s.info)
    (hK : K (o.euler d) (Arith.lit ((((s.step + 1) % 2 ^ 64 : Nat)) : Rat) *. m.h)) :
    Inv o inst Rd s' (o.euler d) ∧ I s'.info ∧ s'.step = (s.step + 1) % 2 ^ 64 ∧
      s'.time = Arith.lit (s'.step : Rat) *. m.h ∧ s'.stepEvent = false ∧
      s'.stateEvent = (if o.nz = 0 then s.stateEvent else !occurred && zeroCrossing o.nz s.previousZ (o.inds (o.euler d))) := by
  unfold advance at h
  simp only [hc.nx, gt_iff_lt, if_pos hx] at h
  obtain ⟨w, dx, e, h⟩ := CALL_eq h
  obtain ⟨h1, h2, h3⟩ := L.getDerivatives hx ha.rd ha.arr.derX e
  have hb := ha.near ⟨h1, h2⟩
  rw [derivs_congr ha.data] at h3
  obtain ⟨w1, u, e, h⟩ := CALL_eq h
  obtain ⟨k1, k2, k3⟩ := L.setTime hb.rd e
  obtain ⟨w2, u, e, h⟩ := CALL_eq h
  have hel : (eulerUpdate cfg.h o.nx s.x dx).length = o.nx := by rw [eulerUpdate_length]; exact ha.arr.x
  obtain ⟨l1, l2, l3⟩ := L.setStates hx k3 hel e
  have he : o.euler d = o.upd d (eulerUpdate cfg.h o.nx s.x dx) := by
    unfold Ode.euler
    rw [if_neg (by omega), hs, h3, hc.h]
  have hd : o.calc' (inst w2).mv.data = o.calc' (o.euler d) := by
    rw [l1, he]
    exact upd_congr (k1.trans hb.data) _
  have hst : o.states (o.euler d) = eulerUpdate cfg.h o.nx s.x dx := by rw [he, L.states_upd _ _ hel]
  have hdl : dx.length = o.nx := by rw [h3]; exact o.lenD d
  rw [hc.h] at h
  rw [hc.h] at k2
  unfold detect at h
  simp only [hc.nz, gt_iff_lt] at h
  split at h
  · next hz =>
    rw [if_neg (by omega)]
    split at h
    · next ho =>
      obtain ⟨w3, z, e3, h⟩ := CALL_eq h
      obtain ⟨n1, n2, n3⟩ := L.getIndicators hz l3 (by exact ha.arr.previousZ) e3

      rw [inds_congr hd] at n3
      obtain ⟨f1, f2, f3, f4, f5, f6⟩ := finish_inv (d := o.euler d) L h
        ⟨⟨n1.data.trans hd, n1.time.trans (l2.trans k2), n2, ⟨by rw [← hc.h]; exact hel, hdl, ha.arr.z, by rw [n3]; exact o.lenZ _⟩⟩,
          by rw [hst, hc.h], n3⟩ hi hK
      refine ⟨f1, f2, f4, ?_, f6, by rw [f5, ho]; rfl⟩
      rw [f3, f4]
    · next ho =>
      obtain ⟨w3, z, e3, h⟩ := CALL_eq h
      obtain ⟨n1, n2, n3⟩ := L.getIndicators hz l3 (by exact ha.arr.z) e3

      rw [inds_congr hd] at n3
      obtain ⟨f1, f2, f3, f4, f5, f6⟩ := finish_inv (d := o.euler d) L h
        ⟨⟨n1.data.trans hd, n1.time.trans (l2.trans k2), n2, ⟨by rw [← hc.h]; exact hel, hdl, by rw [n3]; exact o.lenZ _,
          by rw [n3]; exact o.lenZ _⟩⟩, by rw [hst, hc.h], n3⟩ hi hK
      refine ⟨f1, f2, f4, ?_, f6, ?_⟩
      · rw [f3, f4]
      · rw [f5, n3]; simp [ho]
  · next hz =>
    rw [if_pos (by omega)]
    obtain ⟨f1, f2, f3, f4, f5, f6⟩ := finish_inv (d := o.euler d) L h
      ⟨⟨hd, l2.trans k2, l3, ⟨by rw [← hc.h]; exact hel, hdl, ha.arr.z, ha.arr.previousZ⟩⟩, by rw [hst, hc.h], by
        rw [List.eq_nil_of_length_eq_zero ((o.lenZ (o.euler d)).trans (by omega))]
        exact List.eq_nil_of_length_eq_zero (ha.arr.previousZ.trans (by omega))⟩ hi hK
    exact ⟨f1, f2, f4, by rw [f3, f4], f6, f5⟩

/-- One pass through the loop: if an event occurred, it is handled; then a forward Euler step is made. -/
theorem pass_inv (L : Laws o api inst Rd ev I K) (hc : cfg.For o) (hx : 0 < o.nx) {fuel : Nat} {s s' : Sim F W} {d : D}
    (h : pass api cfg fuel s = .ret (true, s')) (ha : Inv o inst Rd s d) (hi : I s.info)
    (hE : eventOccurred s = true → K (ev d) s.time)
    (hK : K (o.euler (if eventOccurred s then ev d else d)) (Arith.lit ((((s.step + 1) % 2 ^ 64 : Nat)) : Rat) *. m.h)) :
    let d1 := if eventOccurred s then ev d else d
    Inv o inst Rd s' (o.euler d1) ∧ I s'.info ∧ s'.step = (s.step + 1) % 2 ^ 64 ∧
      s'.time = Arith.lit (s'.step : Rat) *. m.h ∧ s'.stepEvent = false ∧
      s'.stateEvent = (if o.nz = 0 then s.stateEvent else
        !eventOccurred s && zeroCrossing o.nz (o.inds d) (o.inds (o.euler d1))) := by
  unfold pass at h
  split at h
  · cases h
  · simp only at h
    split at h
    · next ho =>
      obtain ⟨s1, h, h1, h2, h3, h4, h5, h6, h7⟩ := handle_inv L hc hx h ha.toAt ha.x (hE ho)
      split at h
      · cases h
      · have := advance_inv L hc hx h h1 h2 h4 (by rw [h6]; rw [if_pos ho] at hK; exact hK)
        rw [h6, h7, h3, ha.prevZ] at this
        rw [if_pos ho]
        exact this
    · next ho =>
      split at h
      · cases h
      · have := advance_inv L hc hx h ha.toAt ha.x hi (by rw [if_neg ho] at hK; exact hK)
        rw [ha.prevZ] at this
        rw [if_neg ho]
        exact this

end Verif.Importer.Euler
