import Verif.Lemmas.StateSpaceRead
import Verif.Spec.LinearSystem
import Verif.Lemmas.ExReach
import Mathlib.Tactic.Ring
import Mathlib.Algebra.Order.Field.Rat
import Mathlib.Logic.Function.Iterate

/-!
# C76: in Co-Simulation StateSpace computes the explicit Euler solution of its linear system
-/

set_option linter.unusedSectionVars false

namespace Verif

namespace StateSpace

/-- The data hold this system. -/
structure Holds (d : Data XRat) (s : LinearSystem) : Prop where
  dims : dims3 d
  A : ∀ i j : Fin 3, d.A i j = .fin (s.A i j)
  B : ∀ i j : Fin 3, d.B i j = .fin (s.B i j)
  C : ∀ i j : Fin 3, d.C i j = .fin (s.C i j)
  D : ∀ i j : Fin 3, d.D i j = .fin (s.D i j)
  u : ∀ i : Fin 3, d.u i = .fin (s.u i)
  x : ∀ i : Fin 3, d.x i = .fin (s.x i)

theorem accum_three {a : Rat} {f : Nat → XRat} {g : Fin 3 → Rat} (h : ∀ j : Fin 3, f j = .fin (g j)) :
    accum (.fin a) f 3 = .fin (a + g 0 + g 1 + g 2) := by
  have h0 : f 0 = _ := h 0
  have h1 : f 1 = _ := h 1
  have h2 : f 2 = _ := h 2
  simp only [accum, h0, h1, h2, XRat.add_fin]

theorem Holds.der {d : Data XRat} {s : LinearSystem} (h : Holds d s) (i : Fin 3) : (upd d).der_x i = .fin (s.der i) := by
  show (if (i : Nat) < d.n then _ else _) = _
  rw [h.dims.2.1, h.dims.2.2, if_pos i.isLt, XRat.lit_eq,
    accum_three (g := fun j => s.A i j * s.x j) (fun j => by rw [h.A, h.x, XRat.mul_fin]),
    accum_three (g := fun j => s.B i j * s.u j) (fun j => by rw [h.B, h.u, XRat.mul_fin])]
  congr 1
  simp only [LinearSystem.der, LinearSystem.dot]
  ring

theorem Holds.out {d : Data XRat} {s : LinearSystem} (h : Holds d s) (i : Fin 3) : (upd d).y i = .fin (s.out i) := by
  show (if (i : Nat) < d.r then _ else _) = _
  rw [h.dims.1, h.dims.2.1, h.dims.2.2, if_pos i.isLt, XRat.lit_eq,
    accum_three (g := fun j => s.C i j * s.x j) (fun j => by rw [h.C, h.x, XRat.mul_fin]),
    accum_three (g := fun j => s.D i j * s.u j) (fun j => by rw [h.D, h.u, XRat.mul_fin])]
  congr 1
  simp only [LinearSystem.out, LinearSystem.dot]
  ring

theorem Holds.next {d : Data XRat} {s : LinearSystem} (h : Holds d s) : Holds (euler d) s.next where
  dims := h.dims
  A := h.A
  B := h.B
  C := h.C
  D := h.D
  u := h.u
  x i := by
    show (if (i : Nat) < 3 then _ else _) = _
    rw [if_pos i.isLt, h.der, h.x, XRat.lit_eq, XRat.mul_fin, XRat.add_fin]
    rfl

theorem Holds.eulers (n : Nat) {d : Data XRat} {s : LinearSystem} (h : Holds d s) : Holds (eulers n d) (LinearSystem.next^[n] s) := by
  induction n generalizing d s with
  | zero => exact h
  | succ n ih => rw [StateSpace.eulers, Function.iterate_succ_apply]; exact ih h.next

theorem elems_vector {v : Nat → XRat} {a : Fin 3 → Rat} (h : ∀ i : Fin 3, v i = .fin (a i)) : elems 3 v = LinearSystem.vector a := by
  have h0 : v 0 = _ := h 0
  have h1 : v 1 = _ := h 1
  have h2 : v 2 = _ := h 2
  rw [elems_three, h0, h1, h2]; rfl

theorem entries_matrix {M : Nat → Nat → XRat} {a : Fin 3 → Fin 3 → Rat} (h : ∀ i j : Fin 3, M i j = .fin (a i j)) :
    entries 3 3 M = LinearSystem.matrix a := by
  have e : entries 3 3 M = elems 3 (M 0) ++ elems 3 (M 1) ++ elems 3 (M 2) := rfl
  have h0 : elems 3 (M 0) = _ := elems_vector (h 0)
  have h1 : elems 3 (M 1) = _ := elems_vector (h 1)
  have h2 : elems 3 (M 2) = _ := elems_vector (h 2)
  rw [e, h0, h1, h2]; rfl

theorem Holds.reads {w : FMI3.World XRat (Data XRat)} {d : Data XRat} {s : LinearSystem} (h : Holds d s) (hd : upd w.inst.mv.data = upd d)
    (hs : w.inst.ctx.state ∈ FMI3.Spec.allowedIn (.get .float64)) : FMI3.ReadsSystem w s := by
  have hw : dims3 w.inst.mv.data :=
    ⟨(congrArg Data.m hd).trans h.dims.1, (congrArg Data.n hd).trans h.dims.2.1, (congrArg Data.r hd).trans h.dims.2.2⟩
  obtain ⟨r1, r2, r3⟩ := reads_three hw hs
  have hb := inBounds_of hw
  have r := fun {vr} h1 h2 => hd ▸ reads_block (vr := vr) hb hs h1 h2
  have b := h.dims
  refine ⟨r1, r2, r3, ?_, ?_, ?_, ?_, ?_, ?_, ?_, ?_⟩
  · have := r (vr := 4) (by decide) (by decide)
    rwa [show block (upd d) 4 = entries d.n d.n d.A from rfl, b.2.1, entries_matrix h.A] at this
  · have := r (vr := 5) (by decide) (by decide)
    rwa [show block (upd d) 5 = entries d.m d.n d.B from rfl, b.1, b.2.1, entries_matrix h.B] at this
  · have := r (vr := 6) (by decide) (by decide)
    rwa [show block (upd d) 6 = entries d.r d.n d.C from rfl, b.2.1, b.2.2, entries_matrix h.C] at this
  · have := r (vr := 7) (by decide) (by decide)
    rwa [show block (upd d) 7 = entries d.r d.m d.D from rfl, b.1, b.2.2, entries_matrix h.D] at this
  · have := r (vr := 9) (by decide) (by decide)
    rwa [show block (upd d) 9 = elems d.m d.u from rfl, b.1, elems_vector h.u] at this
  · have := r (vr := 10) (by decide) (by decide)
    rwa [show block (upd d) 10 = elems d.r (upd d).y from rfl, b.2.2, elems_vector h.out] at this
  · have := r (vr := 11) (by decide) (by decide)
    rwa [show block (upd d) 11 = elems d.n d.x from rfl, b.2.1, elems_vector h.x] at this
  · have := r (vr := 12) (by decide) (by decide)
    rwa [show block (upd d) 12 = elems d.n (upd d).der_x from rfl, b.2.1, elems_vector h.der] at this

theorem vector_inj {v : Nat → XRat} {a : Fin 3 → Rat} (h : LinearSystem.vector a = elems 3 v) (i : Fin 3) : v i = .fin (a i) := by
  rw [elems_three, LinearSystem.vector] at h
  simp only [List.cons.injEq, and_true] at h
  obtain ⟨h0, h1, h2⟩ := h
  match i with
  | 0 => exact h0.symm
  | 1 => exact h1.symm
  | 2 => exact h2.symm

theorem matrix_inj {M : Nat → Nat → XRat} {a : Fin 3 → Fin 3 → Rat} (h : LinearSystem.matrix a = entries 3 3 M) (i j : Fin 3) :
    M i j = .fin (a i j) := by
  have e : entries 3 3 M = elems 3 (M 0) ++ elems 3 (M 1) ++ elems 3 (M 2) := rfl
  rw [e, LinearSystem.matrix] at h
  obtain ⟨h, h2⟩ := List.append_inj h rfl
  obtain ⟨h0, h1⟩ := List.append_inj h rfl
  match i with
  | 0 => exact vector_inj h0 j
  | 1 => exact vector_inj h1 j
  | 2 => exact vector_inj h2 j

theorem _root_.Verif.FMI3.ReadsSystem.holds {w : FMI3.World XRat (Data XRat)} {s : LinearSystem} (h : FMI3.ReadsSystem w s) :
    Holds w.inst.mv.data s := by
  have hs : w.inst.ctx.state ∈ FMI3.Spec.allowedIn (.get .float64) := h.m.allowed
  obtain ⟨b1, b2, b3⟩ := FMI3.StateSpace.reads_dims (a := 3) (b := 3) (c := 3) h.m h.n h.r
  have hd : dims3 w.inst.mv.data := ⟨b1, b2, b3⟩
  have hb := inBounds_of hd
  have r := fun {vr} h1 h2 => reads_block (vr := vr) hb hs h1 h2
  obtain ⟨b1, b2, b3⟩ := hd
  let d := w.inst.mv.data
  refine ⟨⟨b1, b2, b3⟩, ?_, ?_, ?_, ?_, ?_, ?_⟩
  · have e : block (upd d) 4 = entries 3 3 d.A := by rw [show block (upd d) 4 = entries d.n d.n d.A from rfl, b2]
    exact matrix_inj (h.A.unique (e ▸ r (by decide) (by decide)) rfl)
  · have e : block (upd d) 5 = entries 3 3 d.B := by rw [show block (upd d) 5 = entries d.m d.n d.B from rfl, b1, b2]
    exact matrix_inj (h.B.unique (e ▸ r (by decide) (by decide)) rfl)
  · have e : block (upd d) 6 = entries 3 3 d.C := by rw [show block (upd d) 6 = entries d.r d.n d.C from rfl, b2, b3]
    exact matrix_inj (h.C.unique (e ▸ r (by decide) (by decide)) rfl)
  · have e : block (upd d) 7 = entries 3 3 d.D := by rw [show block (upd d) 7 = entries d.r d.m d.D from rfl, b1, b3]
    exact matrix_inj (h.D.unique (e ▸ r (by decide) (by decide)) rfl)
  · have e : block (upd d) 9 = elems 3 d.u := by rw [show block (upd d) 9 = elems d.m d.u from rfl, b1]
    exact vector_inj (h.u.unique (e ▸ r (by decide) (by decide)) rfl)
  · have e : block (upd d) 11 = elems 3 d.x := by rw [show block (upd d) 11 = elems d.n d.x from rfl, b2]
    exact vector_inj (h.x.unique (e ▸ r (by decide) (by decide)) rfl)

end StateSpace

namespace FMI3
open Verif.StateSpace (dims3)

/-- **C76**: let the importer read `time = t₀` and the linear system `s` after a successful `fmi3ExitInitializationMode` of a Co-Simulation
instance of StateSpace. After any calls that do not set anything, all of them successful, whatever communication step sizes they used,
the FMU reports the `n`-th step of the explicit Euler method at `time = t₀ + n h`, where `h = 0.001` and `n` is the number of solver steps
(less than 2⁶⁴). -/
theorem C76 {w w₁ w₂ : World XRat (StateSpace.Data XRat)}
    (h : ReachableProper StateSpace.model .coSimulation w) {f₁ o}
    (e₁ : step StateSpace.model f₁ w .exitInitializationMode = .ret (w₁, .OK, o)) {t₀ : Rat} {s : LinearSystem}
    (ht : Reads StateSpace.model w₁ .float64 0 (.fin t₀)) (hx : ReadsSystem w₁ s) {fuel : Nat} {ops : List (Op XRat)} {outs}
    (hops : ∀ op ∈ ops, ¬ Interferes op)
    (e₂ : run StateSpace.model fuel w₁ ops = .ret (w₂, outs)) (hs : ∀ p ∈ outs, p.1 = .OK)
    (hb : fuel * ops.length < 2 ^ 64) :
    ∃ n : Nat, Reads StateSpace.model w₂ .float64 0 (.fin (t₀ + n * (1 / 1000))) ∧ ReadsSystem w₂ (LinearSystem.next^[n] s) := by
  have hok := (RefFMU3.stateSpace (F := XRat)).eff.okOrError
  have h1 := ReachableProper.call h e₁ (by simp [Op.fn])
  obtain ⟨hz, hts, hst⟩ := exit_start hok (h.reachable hok) e₁
  have hre := (h1.reachable hok).readable hok
  have hd0 := hx.holds
  have et := ht.unique (StateSpace.reads_time (StateSpace.inBounds_of hd0.dims) hre)
  obtain ⟨h2, n, hn, hd, ha⟩ := run_eulers ops h1 hst hops e₂ hs
  have hre' := (h2.reachable hok).readable hok
  have etime : w₂.inst.ctx.time = _ := ha.exact hz hts (by omega) et.symm
  have hk := hd0.eulers n
  have hw : dims3 w₂.inst.mv.data := ⟨(congrArg StateSpace.Data.m hd).trans hk.dims.1, (congrArg StateSpace.Data.n hd).trans hk.dims.2.1,
    (congrArg StateSpace.Data.r hd).trans hk.dims.2.2⟩
  exact ⟨n, etime ▸ StateSpace.reads_time (StateSpace.inBounds_of hw) hre', hk.reads hd hre'⟩

/-- The unit matrix. -/
def unit (i j : Fin 3) : Rat := if i = j then 1 else 0

theorem dot_unit (i : Fin 3) (v : Fin 3 → Rat) : LinearSystem.dot (unit i) v = v i := by
  match i with
  | 0 => simp [LinearSystem.dot, unit]
  | 1 => simp [LinearSystem.dot, unit]
  | 2 => simp [LinearSystem.dot, unit]

theorem next_unit (n : Nat) {s : LinearSystem} (hA : s.A = unit) (hB : s.B = unit) :
    LinearSystem.next^[n] s = { s with x := fun i => (1001 / 1000) ^ n * (s.x i + s.u i) - s.u i } := by
  induction n generalizing s with
  | zero =>
    show s = _
    simp
  | succ n ih =>
    have : s.next = { s with x := fun i => s.x i + 1 / 1000 * (s.x i + s.u i) } := by
      unfold LinearSystem.next LinearSystem.der
      simp only [hA, hB, dot_unit]
    rw [Function.iterate_succ_apply, this, ih (s := { s with x := fun i => s.x i + 1 / 1000 * (s.x i + s.u i) }) hA hB]
    have e : ∀ i, (1001 / 1000) ^ n * (s.x i + 1 / 1000 * (s.x i + s.u i) + s.u i) - s.u i =
        (1001 / 1000) ^ (n + 1) * (s.x i + s.u i) - s.u i := fun i => by ring
    simp only [e]

/-- The system with the start values of StateSpace/FMI3.xml. -/
def startSystem : LinearSystem := ⟨unit, unit, unit, unit, fun i => i + 1, fun _ => 0⟩

theorem ident_unit : ∀ i j : Fin 3, (StateSpace.ident i j : XRat) = .fin (unit i j) := by decide +kernel

theorem start_holds (ctx mv) : StateSpace.Holds (StateSpace.setStartValues ctx mv).data startSystem where
  dims := ⟨rfl, rfl, rfl⟩
  A := ident_unit
  B := ident_unit
  C := ident_unit
  D := ident_unit
  u := (by decide +kernel : ∀ i : Fin 3, (Arith.lit ((i + 1 : Nat) : Rat) : XRat) = .fin (startSystem.u i))
  x := (by decide +kernel : ∀ i : Fin 3, (Arith.lit 0 : XRat) = .fin (startSystem.x i))

/-- **C76**, the start: an instance in which nothing was set reads the unit matrices, the inputs 1, 2, 3 and the states 0, 0, 0. -/
theorem C76_start {t : IType} {w : World XRat (StateSpace.Data XRat)} (hw : Reachable StateSpace.model t w)
    (h : Untouched StateSpace.model w) : ReadsSystem w startSystem := by
  obtain ⟨ctx, mv, -, h⟩ := h.started RefFMU3.stateSpace.eff StateSpace.reads_upTo
  exact (start_holds ctx mv).reads h (hw.readable RefFMU3.stateSpace.eff.okOrError)

/-- **C76**, the solution for the start values: when the importer reads unit matrices, the outputs grow by the factor 1.001 in each of the
`n` solver steps. -/
theorem C76_unit {w w₁ w₂ : World XRat (StateSpace.Data XRat)}
    (h : ReachableProper StateSpace.model .coSimulation w) {f₁ o}
    (e₁ : step StateSpace.model f₁ w .exitInitializationMode = .ret (w₁, .OK, o)) {t₀ : Rat} {u x : Fin 3 → Rat}
    (ht : Reads StateSpace.model w₁ .float64 0 (.fin t₀)) (hx : ReadsSystem w₁ ⟨unit, unit, unit, unit, u, x⟩)
    {fuel : Nat} {ops : List (Op XRat)} {outs} (hops : ∀ op ∈ ops, ¬ Interferes op)
    (e₂ : run StateSpace.model fuel w₁ ops = .ret (w₂, outs)) (hs : ∀ p ∈ outs, p.1 = .OK)
    (hb : fuel * ops.length < 2 ^ 64) :
    ∃ n : Nat, Reads StateSpace.model w₂ .float64 0 (.fin (t₀ + n * (1 / 1000))) ∧
      ReadsArray StateSpace.model w₂ 10 (LinearSystem.vector fun i => (1001 / 1000) ^ n * (x i + u i)) := by
  obtain ⟨n, h1, h2⟩ := C76 h e₁ ht hx hops e₂ hs hb
  refine ⟨n, h1, ?_⟩
  have := h2.y
  rw [next_unit n rfl rfl] at this
  have e : LinearSystem.out ⟨unit, unit, unit, unit, u, fun i => (1001 / 1000) ^ n * (x i + u i) - u i⟩ =
      fun i => (1001 / 1000) ^ n * (x i + u i) := by
    funext i
    simp only [LinearSystem.out, dot_unit]
    ring
  exact e ▸ this

/-- Non-vacuity: with another matrix `A` and other inputs, the FMU makes two solver steps; an early return is not possible. -/
example : (Ex.runCS3 StateSpace.model false false [.enterInitializationMode (.fin 1) false (.fin 0),
    .set .float64 (some [4, 9]) 2 (some ([1, 2, 3, 4, 5, 6, 7, 8, 9, 10, 20, 30].map .fin)) 12, .exitInitializationMode,
    .doStep (.fin 1) (.fin (1 / 1000)) Ex.stepOut, .get .float64 (some [12]) 1 (some (List.replicate 3 .nan)) 3,
    .doStep (.fin (1001 / 1000)) (.fin (1 / 1000)) Ex.stepOut,
    .get .float64 (some [0]) 1 (some [.nan]) 1, .get .float64 (some [10]) 1 (some (List.replicate 3 .nan)) 3]).is (fun x =>
      Ex.allOK x.2 && (x.2.drop 6 == [(.OK, .values .float64 (some [.fin (1002 / 1000)])),
        (.OK, .values .float64 (some (LinearSystem.vector (LinearSystem.next^[2]
          ⟨fun i j => 3 * i + j + 1, unit, unit, unit, fun i => 10 * (i + 1), fun _ => 0⟩).out)))])) = true := by
  decide +kernel

/-- Non-vacuity: the outputs for the start values after three solver steps in one communication step. -/
example : (Ex.runCS3 StateSpace.model false false [.enterInitializationMode (.fin 0) false (.fin 0), .exitInitializationMode,
    .doStep (.fin 0) (.fin (3 / 1000)) Ex.stepOut, .get .float64 (some [10]) 1 (some (List.replicate 3 .nan)) 3]).is (fun x =>
      Ex.allOK x.2 && (x.2.drop 3 == [(.OK, .values .float64 (some (LinearSystem.vector
        fun i => (1001 / 1000) ^ 3 * (0 + (i + 1)))))])) = true := by
  decide +kernel

end FMI3
end Verif
