import Verif.Props.C66
import Verif.Props.C27

/-!
# The programs for Model Exchange as they are built: nothing moves
-/

set_option linter.unusedSectionVars false

namespace Verif
namespace Importer.Euler
variable {F D W V : Type} [Arith F] [HasInf F] {m : Model F D}

/-- Without states and event indicators the program leaves the data as they are, if an event does. -/
theorem Drives.frozen {o : Ode m} {api : Api F W} {record : W → Outcome (W × Status × List V)} {cfg : Config F} {E C T : W → Prop}
    {J : EventInfo F → Prop} {inst : W → Comp F D} {Rd : W → Prop} {ev : D → D} {I : EventInfo F → Prop} {P : List V → Prop}
    (H : Drives api record cfg E C T J fun _ => True) (L : Laws o api inst Rd ev I) (hx : cfg.nx = 0) (hz : cfg.nz = 0) {d : D}
    (hd : o.calc' (ev d) = o.calc' d)
    (hr : ∀ {w w' vs}, Rd w → o.calc' (inst w).mv.data = o.calc' d → record w = .ret (w', .OK, vs) →
      Rd w' ∧ o.calc' (inst w').mv.data = o.calc' d ∧ P vs) :
    Drives api record cfg (fun w => E w ∧ Rd w ∧ o.calc' (inst w).mv.data = o.calc' d) (fun w => C w ∧ Rd w ∧ o.calc' (inst w).mv.data = o.calc' d)
      T J P where
  update := by
    rintro w i ⟨h, h1, h2⟩
    obtain ⟨w', i', e, a, b, c, f⟩ := H.update (i := i) h
    obtain ⟨k1, -, k2, -⟩ := L.update h1 h2 e
    exact ⟨w', i', e, a, b, c, fun ht => ⟨f ht, k2, k1.trans hd⟩⟩
  enterCT := by
    rintro w ⟨h, h1, h2⟩
    obtain ⟨w', e, a⟩ := H.enterCT h
    obtain ⟨k1, k2⟩ := L.enterContinuousTimeMode h1 e
    exact ⟨w', e, a, k2, k1.data.trans h2⟩
  enterEM := by
    rintro w ⟨h, h1, h2⟩
    obtain ⟨w', e, a⟩ := H.enterEM h
    obtain ⟨k1, k2⟩ := L.enterEventMode h1 e
    exact ⟨w', e, a, k2, k1.data.trans h2⟩
  getStates := by intro w l _ h; omega
  getNominals := by intro w l _ h; omega
  getDerivatives := by intro w l _ h; omega
  getIndicators := by intro w l _ h; omega
  setStates := by intro w l _ h; omega
  setTime := by
    rintro w k ⟨h, h1, h2⟩
    obtain ⟨w', e, a⟩ := H.setTime (k := k) h
    obtain ⟨k1, -, k2⟩ := L.setTime h1 e
    exact ⟨w', e, a, k2, k1.trans h2⟩
  completed := by
    rintro w a b ⟨h, h1, h2⟩
    obtain ⟨w', e, c⟩ := H.completed (a := a) (b := b) h
    obtain ⟨k1, k2, -⟩ := L.completed h1 e
    exact ⟨w', e, c, k2, k1.data.trans h2⟩
  record := by
    rintro w ⟨h, h1, h2⟩
    obtain ⟨w', vs, e, c, -⟩ := H.record h
    obtain ⟨k1, k2, k3⟩ := hr h1 h2 e
    exact ⟨w', vs, e, ⟨c, k1, k2⟩, k3⟩
  stop h := H.stop h.1
  info := H.info

end Importer.Euler

/-- The rows are determined by their times and values. -/
theorem recorded_eq {F V : Type} {t : Nat → F} {v : List V} {n : Nat} {rows : List (Importer.CoSim.Row F V)} (ht : rows.map Importer.CoSim.Row.time = (List.range n).map t)
    (hv : ∀ r ∈ rows, r.values = v) : rows = (List.range n).map fun k => ⟨t k, v⟩ := by
  have h : rows = (rows.map Importer.CoSim.Row.time).map fun x => ⟨x, v⟩ := by
    rw [List.map_map]
    conv => lhs; rw [← List.map_id rows]
    refine List.map_congr_left fun r hr => ?_
    rw [← hv r hr]
    rfl
  rw [h, ht, List.map_map]
  rfl

theorem calls_allOK {W O V : Type} {call : W → O → Outcome (W × Status × V)} {ops : List O} : ∀ {w w' : W} {vs : List V},
    Importer.CoSim.calls call ops w = .ret (w', .OK, vs) → AllOK call w ops w' vs := by
  induction ops with
  | nil => intro w w' vs e; cases e; exact .nil
  | cons op ops ih =>
    intro w w' vs e
    unfold Importer.CoSim.calls at e
    obtain ⟨⟨w1, s1, v1⟩, e1, e⟩ := Outcome.bind_eq_ret.1 e
    simp only at e
    split at e
    · next hs =>
      subst hs
      obtain ⟨⟨w2, s2, v2⟩, e2, e⟩ := Outcome.bind_eq_ret.1 e
      cases e
      exact .cons e1 (ih e2)
    · next hs => cases e; exact absurd rfl hs

namespace FMI2
open Importer.CoSim
variable {F D : Type} [Arith F] [HasInf F] {m : Model F D} {p : Profile F D}

/-- The calls change nothing that can be seen. -/
theorem AllOK.kept {o : Ode m} (hm : m.Eff) (hr : m.ReadsUpTo o.calc') {fuel : Nat} {w w' : World F D} {ops : List (Op F)} {vs : List (Out F)}
    (h : AllOK (FMI2.step m fuel) w ops w' vs) (hp : ∀ op ∈ ops, ¬ notPassive m op.fn) : o.calc' w'.inst.mv.data = o.calc' w.inst.mv.data := by
  induction h with
  | nil => rfl
  | cons e _ ih =>
    rw [ih fun op h => hp op (List.mem_cons_of_mem _ h)]
    exact (step_passive hm hr (hp _ List.mem_cons_self) _ e).data

theorem AllOK.readable (hk : OkOrError m) {fuel : Nat} {w w' : World F D} {ops : List (Op F)} {vs : List (Out F)}
    (h : AllOK (FMI2.step m fuel) w ops w' vs) (hp : ∀ op ∈ ops, ¬ notPassive m op.fn) (hw : Readable w.inst) : Readable w'.inst := by
  induction h with
  | nil => exact hw
  | cons e _ ih =>
    refine ih (fun op h => hp op (List.mem_cons_of_mem _ h)) ?_
    refine step_keepX hk (Readable.callInv m) (fun _ _ _ _ => trivial) hw (fun _ _ _ _ h => h) ?_ _ e
    rintro (h | h) <;> exact hp _ List.mem_cons_self (by simp [notPassive, h])

/-- As the program is built, every row shows the values of the start. -/
theorem frozen (hm : Describes m p) (o : Ode m) (hrd : m.ReadsUpTo o.calc') {ev I} (he : Importer.Euler.Events o ev I) (hT : Timeless m)
    {d : D} (hd : o.calc' (ev d) = o.calc' d)
    {P : Program F (Op F)} (hr : ∀ op ∈ P.record, Gets m p op) {v : List (Out F)}
    (hv : ∀ {w w' vs}, Readable w.inst → o.calc' w.inst.mv.data = o.calc' d → AllOK (FMI2.step m 0) w P.record w' vs → vs = v)
    {N : Nat} (hN : N < 2 ^ 64) (hstop : ∀ k ≤ N, (P.stopTime <=. timeAfter P.h k) = decide (k = N))
    (hfin : ∀ k ≤ N, ((HasInf.inf : F) <=. timeAfter P.h k) = false) {fuel n : Nat} (hf : 0 < fuel) (hn : N < n) (resource : Ptr UInt8)
    (hstart : ∀ c l, instantiate m (some "instance1") .modelExchange (some m.token) resource (some true) false true = (some c, l) →
      p.needs c.ctx ∧ c.mv.data = d) :
    Importer.Euler.simulate2 m .built P fuel n resource = .ret (.OK, (List.range (N + 1)).map fun k => ⟨timeAfter P.h k, v⟩) := by
  obtain ⟨c, l, hc⟩ := createdME hm resource
  obtain ⟨hnc, hdc⟩ := hstart c l hc
  obtain ⟨w₀, vs, ha, ho⟩ := startedME hm hc hnc (stop := P.stopTime)
  have ht : c.ctx.typ = .modelExchange := (createModelInstance_ctx (show createModelInstance m false true false (some "instance1") (some m.token)
    resource false true .modelExchange = (some c, l) from hc)).1
  have hpass : ∀ op ∈ P.record, ¬ notPassive m op.fn := by
    intro op hop hp
    have := (hr op hop).1
    simp only [notPassive, List.mem_cons, List.not_mem_nil, or_false] at this hp
    rcases this with h | h | h | h <;> simp [h] at hp
  obtain ⟨s, e, hE⟩ := Importer.Euler.simulate_succeeds
    ((drivesME hm ht hnc hr (cfg := ⟨0, 0, P.h, P.stopTime, true⟩) (.inl rfl) (.inl rfl)).frozen (P := fun vs => vs = v)
      (Importer.Euler.laws2 o hm.ref.eff hrd he []) rfl rfl hd fun h1 h2 e => by
        have h3 := calls_allOK e
        exact ⟨AllOK.readable hm.ref.eff.okOrError h3 hpass h1, (AllOK.kept hm.ref.eff hrd h3 hpass).trans h2, hv h1 h2 h3⟩)
    hf hN hstop ⟨ho, by
      show _ ∈ _
      rw [ho.state]; simp [Spec.allowedIn], (AllOK.kept hm.ref.eff hrd ha (by simp [notPassive, Op.fn])).trans (congrArg o.calc' hdc)⟩ hn
  obtain ⟨w', v', et⟩ := hE.mode
  obtain ⟨k, hk, hcov, hend⟩ := hE.rows
  have hk' : k = N + 1 := hend.resolve_right fun h => by have := (h.1 hT).2; rw [h.2] at this; cases this
  subst hk'
  have hrows := hcov.eq fun hn => hn ⟨rfl, fun i hi => hi hT, hfin⟩
  unfold Importer.Euler.simulate2
  rw [hc]
  simp only []
  rw [CALLS_ok (api := api2 m 0 P.h) ha, show (⟨(Importer.Euler.Macros.built).nx, Importer.Euler.Macros.built.nz, P.h, P.stopTime, true⟩ :
    Importer.Euler.Config F) = ⟨0, 0, P.h, P.stopTime, true⟩ from rfl, e]
  simp only [Outcome.ret_bind, Bool.false_eq_true, if_false, hE.status]
  rw [tearDown_ok (api := api2 m 0 P.h) et]
  rw [recorded_eq hrows hE.values]

end FMI2

namespace FMI3
open Importer.CoSim
variable {F D : Type} [Arith F] [HasInf F] {m : Model F D} {p : Profile F D}

/-- The calls change nothing that can be seen. -/
theorem AllOK.kept {o : Ode m} (hm : m.Eff) (hr : m.ReadsUpTo o.calc') {fuel : Nat} {w w' : World F D} {ops : List (Op F)} {vs : List (Out F)}
    (h : AllOK (FMI3.step m fuel) w ops w' vs) (hp : ∀ op ∈ ops, ¬ notPassive m op.fn) : o.calc' w'.inst.mv.data = o.calc' w.inst.mv.data := by
  induction h with
  | nil => rfl
  | cons e _ ih =>
    rw [ih fun op h => hp op (List.mem_cons_of_mem _ h)]
    exact (step_passive hm hr (hp _ List.mem_cons_self) _ e).data

theorem AllOK.reachable (hk : OkOrError m) {fuel : Nat} {t : IType} {w w' : World F D} {ops : List (Op F)} {vs : List (Out F)}
    (h : AllOK (FMI3.step m fuel) w ops w' vs) (hw : Reachable m t w) : Reachable m t w' := by
  induction h with
  | nil => exact hw
  | cons e _ ih => exact ih (Reachable.call hk hw e)

/-- As the program is built, every row shows the values of the start. -/
theorem frozen (hm : Describes m p) (o : Ode m) (hrd : m.ReadsUpTo o.calc') {ev I} (he : Importer.Euler.Events o ev I) (hme : m.modelExchange = true) (hT : Timeless m)
    {d : D} (hd : o.calc' (ev d) = o.calc' d)
    {P : Program F (Op F)} (hr : ∀ op ∈ P.record, Gets m p op) {v : List (Out F)}
    (hv : ∀ {w w' vs}, Reachable m .modelExchange w → o.calc' w.inst.mv.data = o.calc' d → AllOK (FMI3.step m 0) w P.record w' vs → vs = v)
    {N : Nat} (hN : N < 2 ^ 64) (hstop : ∀ k ≤ N, (P.stopTime <=. timeAfter P.h k) = decide (k = N))
    (hfin : ∀ k ≤ N, ((HasInf.inf : F) <=. timeAfter P.h k) = false) {fuel n : Nat} (hf : 0 < fuel) (hn : N < n) (resource : Ptr UInt8)
    (hstart : ∀ c l, instantiateModelExchange m (some "instance1") (some m.token) resource false true true = (some c, l) →
      p.needs c.ctx ∧ c.mv.data = d) :
    Importer.Euler.simulate3 m .built P fuel n resource = .ret (.OK, (List.range (N + 1)).map fun k => ⟨timeAfter P.h k, v⟩) := by
  obtain ⟨c, l, hc⟩ := createdME hm hme resource
  obtain ⟨hnc, hdc⟩ := hstart c l hc
  obtain ⟨ht, w₀, vs, ha, ho⟩ := startedME hm hc hnc (stop := P.stopTime)
  have hpass : ∀ op ∈ P.record, ¬ notPassive m op.fn := by
    intro op hop hp
    obtain ⟨t, h⟩ := (hr op hop).1
    simp [notPassive, h] at hp
  obtain ⟨s, e, hE⟩ := Importer.Euler.simulate_succeeds
    ((drivesME hm ht hnc hr (cfg := ⟨0, 0, P.h, P.stopTime, false⟩) (.inl rfl) (.inl rfl)).frozen (P := fun vs => vs = v)
      (Importer.Euler.laws3 o hm.ref.eff hrd he .modelExchange []) rfl rfl hd fun h1 h2 e => by
        have h3 := calls_allOK e
        exact ⟨AllOK.reachable hm.ref.eff.okOrError h3 h1, (AllOK.kept hm.ref.eff hrd h3 hpass).trans h2, hv h1 h2 h3⟩)
    hf hN hstop ⟨ho, ho.reach, (AllOK.kept hm.ref.eff hrd ha (by simp [notPassive, Op.fn])).trans (congrArg o.calc' hdc)⟩ hn
  obtain ⟨w', v', et⟩ := hE.mode
  obtain ⟨k, hk, hcov, hend⟩ := hE.rows
  have hk' : k = N + 1 := hend.resolve_right fun h => by have := (h.1 hT).2; rw [h.2] at this; cases this
  subst hk'
  have hrows := hcov.eq fun hn => hn ⟨rfl, fun i hi => hi hT, hfin⟩
  unfold Importer.Euler.simulate3
  rw [hc]
  simp only []
  rw [CALLS_ok (api := api3 m 0 P.h) ha, show (⟨(Importer.Euler.Macros.built).nx, Importer.Euler.Macros.built.nz, P.h, P.stopTime, false⟩ :
    Importer.Euler.Config F) = ⟨0, 0, P.h, P.stopTime, false⟩ from rfl, e]
  simp only [Outcome.ret_bind, Bool.false_eq_true, if_false, hE.status]
  rw [tearDown_ok (api := api3 m 0 P.h) et]
  rw [recorded_eq hrows hE.values]

end FMI3
end Verif
