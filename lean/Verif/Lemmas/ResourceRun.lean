import Verif.Lemmas.ExitStatusME
import Verif.Lemmas.Fuel
import Verif.Props.C01
import Verif.Props.C02
import Verif.Props.C40
import Verif.Props.C54
import Verif.Props.C82
import Verif.Props.C82ME
import Verif.Importer.ResourceLocation

/-!
# The rows of the programs of Resource
-/

set_option linter.unusedSectionVars false

namespace Verif
open Importer.CoSim

section
variable {F W O V : Type} {call : W → O → Outcome (W × Status × V)} {rows : List (Row F V)} {w₀ w w' : W} {I : W → Prop}

/-- Every row holds what the calls `record` returned for an instance with the property `I`. -/
def ReadIn (I : W → Prop) (call : W → O → Outcome (W × Status × V)) (record : List O) (rows : List (Row F V)) : Prop :=
  ∀ r ∈ rows, ∃ w w', I w ∧ AllOK call w record w' r.values

variable (hI : ∀ w o w' s v, I w → call w o = .ret (w', s, v) → I w')
include hI

theorem AllOK.staysIn {ops : List O} {vs : List V} (h : AllOK call w ops w' vs) (hw : I w) : I w' := by
  induction h with
  | nil => exact hw
  | cons e _ ih => exact ih (hI _ _ _ _ _ hw e)

theorem Writes.readIn {record : List O} (hw : I w₀) (h : Writes call record w₀ w rows) : I w ∧ ReadIn I call record rows := by
  induction h with
  | start => exact ⟨hw, by intro r hr; cases hr⟩
  | call _ e ih => exact ⟨hI _ _ _ _ _ ih.1 e, ih.2⟩
  | record _ e ih =>
    refine ⟨e.staysIn hI ih.1, fun r hr => ?_⟩
    rcases List.mem_append.1 hr with hr | hr
    · exact ih.2 r hr
    · rw [List.mem_singleton] at hr; subst hr; exact ⟨_, _, ih.1, e⟩

variable [Arith F] {goes : W → F → W → Prop} {P : Program F O} (hg : ∀ w t w', I w → goes w t w' → I w')
include hg

theorem Visits.staysIn {k : Nat} {row : Row F V} (h : Visits call P k w w' row) (hw : I w) : I w' := by
  obtain ⟨-, w1, us, ha, hb⟩ := h
  exact hb.staysIn hI (ha.staysIn hI hw)

theorem Proceeds.readIn {k : Nat} (hw : I w₀) (h : Proceeds call goes P w₀ k w rows) : I w ∧ ReadIn I call P.record rows := by
  induction h with
  | zero => exact ⟨hw, by intro r hr; cases hr⟩
  | succ _ hv hgo ih =>
    refine ⟨hg _ _ _ (hv.staysIn hI hg ih.1) hgo, fun r hr => ?_⟩
    rcases List.mem_append.1 hr with hr | hr
    · exact ih.2 r hr
    · rw [List.mem_singleton] at hr; subst hr
      obtain ⟨-, w1, us, ha, -⟩ := hv
      exact ⟨_, _, ih.1, ha⟩

theorem Completed.readIn {ends : W → F → W → List (Row F V) → Prop} {terminate : O}
    (he : ∀ w t w' last, I w → ends w t w' last → ReadIn I call P.record last) (hw : I w₀)
    (h : Completed call goes ends terminate P w₀ rows) : ReadIn I call P.record rows := by
  cases h with
  | complete hp hv _ _ _ =>
    obtain ⟨h1, h2⟩ := hp.readIn hI hg hw
    intro r hr
    rcases List.mem_append.1 hr with hr | hr
    · exact h2 r hr
    · rw [List.mem_singleton] at hr; subst hr
      obtain ⟨-, w1, us, ha, -⟩ := hv
      exact ⟨_, _, h1, ha⟩
  | ended hp hv _ hl _ =>
    obtain ⟨h1, h2⟩ := hp.readIn hI hg hw
    intro r hr
    rcases List.mem_append.1 hr with hr | hr
    · exact h2 r hr
    · rcases List.mem_cons.1 hr with rfl | hr
      · obtain ⟨-, w1, us, ha, -⟩ := hv
        exact ⟨_, _, h1, ha⟩
      · exact he _ _ _ _ (hv.staysIn hI hg h1) hl r hr

end

variable {F : Type} [Arith F] [HasInf F]

namespace FMI2
variable {D : Type} {m : Model F D} {fuel n : Nat} {c : Comp F D}

/-- The world is reached by calls from the new instance `c`. -/
def After (m : Model F D) (fuel : Nat) (c : Comp F D) (w : World F D) : Prop := ∃ ops outs, run m fuel (.fresh c) ops = .ret (w, outs)

theorem After.step {w w' : World F D} {op s o} (h : After m fuel c w) (e : FMI2.step m fuel w op = .ret (w', s, o)) : After m fuel c w' := by
  obtain ⟨ops, outs, h⟩ := h
  exact ⟨_, _, run_snoc h e⟩

/-- The rows of the Co-Simulation program are read from the instance it creates. -/
theorem readIn_simulate2 {P : Program F (Op F)} {resource : Ptr UInt8} {rows : List (Row F (Out F))} (h : simulate2 m P fuel n resource = .ret (.OK, rows)) :
    ∃ c l, instantiate m (some "instance1") .coSimulation (some m.token) resource (some true) false true = (some c, l) ∧
      ReadIn (After m fuel c) (FMI2.step m fuel) P.record rows := by
  obtain ⟨c, l, w₀, vs, hc, ha, h⟩ := C82 h
  have hI : ∀ w o w' s v, After m fuel c w → FMI2.step m fuel w o = .ret (w', s, v) → After m fuel c w' := fun _ _ _ _ _ h e => h.step e
  refine ⟨c, l, hc, h.readIn hI ?_ ?_ (ha.staysIn hI ⟨[], [], rfl⟩)⟩
  · rintro w t w' hw (⟨o, e⟩ | ⟨w₁, o, o', e1, e2, -⟩)
    · exact hw.step e
    · exact (hw.step e1).step e2
  · rintro w t w' last hw ⟨w₁, w₂, o, t', vs, e1, e2, e3, rfl⟩ r hr
    rw [List.mem_singleton] at hr; subst hr
    exact ⟨_, _, e2.staysIn hI (hw.step e1), e3⟩

theorem readIn_me_simulate2 {M : Importer.Euler.Macros} {P : Program F (Op F)} {resource : Ptr UInt8} {rows : List (Row F (Out F))}
    (h : Importer.Euler.simulate2 m M P fuel n resource = .ret (.OK, rows)) :
    ∃ c l, instantiate m (some "instance1") .modelExchange (some m.token) resource (some true) false true = (some c, l) ∧
      ReadIn (After m 0 c) (FMI2.step m 0) P.record rows := by
  obtain ⟨c, l, w, w', o, hc, h, -⟩ := C82_me h
  exact ⟨c, l, hc, (h.readIn (fun _ _ _ _ _ h e => After.step h e) ⟨[], [], rfl⟩).2⟩

end FMI2

namespace FMI3
variable {D : Type} {m : Model F D} {fuel n : Nat} {c : Comp F D}

/-- The world is reached by calls from the new instance `c`. -/
def After (m : Model F D) (fuel : Nat) (c : Comp F D) (w : World F D) : Prop := ∃ ops outs, run m fuel (.fresh c) ops = .ret (w, outs)

theorem After.step {w w' : World F D} {op s o} (h : After m fuel c w) (e : FMI3.step m fuel w op = .ret (w', s, o)) : After m fuel c w' := by
  obtain ⟨ops, outs, h⟩ := h
  exact ⟨_, _, run_snoc h e⟩

/-- The rows of the Co-Simulation program are read from the instance it creates. -/
theorem readIn_simulate3 {P : Program F (Op F)} {resource : Ptr UInt8} {rows : List (Row F (Out F))} (h : simulate3 m P fuel n resource = .ret (.OK, rows)) :
    ∃ c l, instantiateCoSimulation m (some "instance1") (some m.token) resource false false false true false true = (some c, l) ∧
      ReadIn (After m fuel c) (FMI3.step m fuel) P.record rows := by
  obtain ⟨c, l, w₀, vs, hc, ha, h⟩ := C82 h
  have hI : ∀ w o w' s v, After m fuel c w → FMI3.step m fuel w o = .ret (w', s, v) → After m fuel c w' := fun _ _ _ _ _ h e => h.step e
  refine ⟨c, l, hc, h.readIn hI ?_ ?_ (ha.staysIn hI ⟨[], [], rfl⟩)⟩
  · rintro w t w' hw ⟨r, e, -⟩
    exact hw.step e
  · rintro w t w' last hw ⟨r, -, -, rfl⟩ r hr
    cases hr

theorem readIn_me_simulate3 {M : Importer.Euler.Macros} {P : Program F (Op F)} {resource : Ptr UInt8} {rows : List (Row F (Out F))}
    (h : Importer.Euler.simulate3 m M P fuel n resource = .ret (.OK, rows)) :
    ∃ c l, instantiateModelExchange m (some "instance1") (some m.token) resource false true true = (some c, l) ∧
      ReadIn (After m 0 c) (FMI3.step m 0) P.record rows := by
  obtain ⟨c, l, w, w', o, hc, h, -⟩ := C82_me h
  exact ⟨c, l, hc, (h.readIn (fun _ _ _ _ _ h e => After.step h e) ⟨[], [], rfl⟩).2⟩

end FMI3
end Verif
