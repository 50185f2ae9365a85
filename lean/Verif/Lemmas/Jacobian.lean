import Verif.Importer.Jacobian
import Verif.Lemmas.DerivRef

/-! # Lemmas for C72: the loops that get the Jacobian -/

namespace Verif
open Importer.CoSim Importer.Jacobian
variable {D : Type} {m : Model XRat D} {J : Ctx XRat → D → Nat → Nat → XRat} {J' : Nat → Nat → Rat}

/-- The partial derivatives of the instance are `J'`, and it can be asked for them. -/
structure FMI3.World.Has (J : Ctx XRat → D → Nat → Nat → XRat) (J' : Nat → Nat → Rat) (w : FMI3.World XRat D) : Prop where
  fin : ∀ u k, J w.inst.ctx w.inst.mv.data u k = .fin (J' u k)
  state : w.inst.ctx.state ∈ FMI3.Spec.allowedIn .getDirectionalDerivative

namespace FMI3

theorem directional_step (hJ : m.Partial J) {w : World XRat D} (h : w.Has J J') (us : List Nat) (k fuel : Nat) {buf : List XRat}
    (hb : buf.length = us.length) :
    ∃ w', step m fuel w (.getDirectionalDerivative (some us) us.length (some [k]) 1 (some [Arith.lit 1]) (some buf)) =
      .ret (w', .OK, .reals (some (us.map fun u => .fin (J' u k)))) ∧ w'.Has J J' ∧ w'.inst.ctx = w.inst.ctx := by
  obtain ⟨mv', e, hq⟩ := derivs_fin hJ w.inst us [k] h.fin [1] rfl buf hb
  have ha := (allowed_fn w.inst.ctx .getDirectionalDerivative).2 h.state
  refine ⟨{ w with inst := { w.inst with mv := mv' } }, ?_, ⟨fun u k => by rw [← h.fin u k, ← hq], h.state⟩, rfl⟩
  simp only [List.map_cons, List.map_nil, dot, mul_one, add_zero] at e
  simp only [step, getDirectionalDerivative, World.run]
  rw [begin_ok (mask := MASK_GetDirectionalDerivative) ha]
  exact (congrArg (· >>- _) e).trans rfl

theorem adjoint_step (hJ : m.Partial J) {w : World XRat D} (h : w.Has J J') (u : Nat) (ks : List Nat) (fuel : Nat) {buf : List XRat}
    (hb : buf.length = ks.length) :
    ∃ w', step m fuel w (.getAdjointDerivative (some [u]) 1 (some ks) ks.length (some [Arith.lit 1]) (some buf)) =
      .ret (w', .OK, .reals (some (ks.map fun k => .fin (J' u k)))) ∧ w'.Has J J' ∧ w'.inst.ctx = w.inst.ctx := by
  obtain ⟨mv', e, hq⟩ := adjoint_fin hJ w.inst [u] ks h.fin [1] rfl buf hb
  have ha := (allowed_fn w.inst.ctx .getDirectionalDerivative).2 h.state
  refine ⟨{ w with inst := { w.inst with mv := mv' } }, ?_, ⟨fun u k => by rw [← h.fin u k, ← hq], h.state⟩, rfl⟩
  simp only [List.map_cons, List.map_nil, dot, mul_one, add_zero] at e
  simp only [step, getAdjointDerivative, World.run]
  rw [begin_ok (mask := MASK_GetDirectionalDerivative) ha]
  exact (congrArg (· >>- _) e).trans rfl

end FMI3

theorem zip_set {i x : Nat} {xs : List Nat} {f : Nat → Nat → XRat} : ∀ {M : List (List XRat)} {dx : List Nat}, M.length = dx.length →
    (∀ row ∈ M, row.length = i + (xs.length + 1)) →
    List.zipWith (fun row u => row.take (i + 1) ++ xs.map (f u)) (List.zipWith (fun row v => row.set i v) M (dx.map fun u => f u x)) dx =
      List.zipWith (fun row u => row.take i ++ (x :: xs).map (f u)) M dx
  | [], [], _, _ => rfl
  | row :: M, u :: dx, hl, hr => by
    simp only [List.map_cons, List.zipWith_cons_cons]
    rw [zip_set (by simpa using hl) fun r h => hr r (.tail _ h)]
    have := hr row (.head _)
    rw [List.take_succ_eq_append_getElem (by simp; omega), List.take_set_of_le (Nat.le_refl _)]
    simp

theorem columns_eq (hJ : m.Partial J) {fuel : Nat} {dx : List Nat} : ∀ {xs : List Nat} {i : Nat} {c : List XRat} {M : List (List XRat)}
    {w : FMI3.World XRat D}, w.Has J J' → c.length = dx.length → M.length = dx.length → (∀ row ∈ M, row.length = i + xs.length) →
    ∃ w', columns m fuel dx i xs c M w =
        .ret (w', .OK, List.zipWith (fun row u => row.take i ++ xs.map fun x => .fin (J' u x)) M dx) ∧ w'.Has J J' ∧ w'.inst.ctx = w.inst.ctx := by
  intro xs
  induction xs with
  | nil =>
    intro i c M w h hc hM hr
    refine ⟨w, ?_, h, rfl⟩
    simp only [columns, List.map_nil, List.append_nil]
    have : ∀ {M : List (List XRat)} {dx : List Nat}, M.length = dx.length → (∀ row ∈ M, row.length = i + 0) →
        M = List.zipWith (fun row (_ : Nat) => row.take i) M dx := by
      intro M
      induction M with
      | nil => intros; rfl
      | cons row M ih =>
        intro dx hl hr
        match dx, hl with
        | u :: dx, hl =>
          rw [List.zipWith_cons_cons, ← ih (by simpa using hl) fun r h => hr r (.tail _ h),
            List.take_of_length_le (by rw [hr row (.head _)]; simp)]
    rw [← this hM hr]
  | cons x xs ih =>
    intro i c M w h hc hM hr
    obtain ⟨w1, e1, h1, hc1⟩ := FMI3.directional_step hJ h dx x fuel hc
    have hr' : ∀ row ∈ List.zipWith (fun (row : List XRat) v => row.set i v) M (dx.map fun u => XRat.fin (J' u x)), row.length = i + 1 + xs.length := by
      intro row hrow
      obtain ⟨j, hj, rfl⟩ := List.getElem_of_mem hrow
      simp only [List.getElem_zipWith, List.length_set]
      rw [hr _ (List.getElem_mem _), List.length_cons]
      omega
    obtain ⟨w2, e2, h2, hc2⟩ := ih (i := i + 1) (c := dx.map fun u => .fin (J' u x))
      (M := List.zipWith (fun row v => row.set i v) M (dx.map fun u => .fin (J' u x))) h1 (by simp) (by simp [hM]) hr'
    refine ⟨w2, ?_, h2, hc2.trans hc1⟩
    simp only [columns, e1, Outcome.ret_bind, if_true]
    rw [e2, zip_set (f := fun u x => .fin (J' u x)) hM hr]

theorem rows_eq (hJ : m.Partial J) {fuel : Nat} {x : List Nat} : ∀ {dxs : List Nat} {M rest : List (List XRat)}
    {w : FMI3.World XRat D}, w.Has J J' → rest.length = dxs.length → (∀ row ∈ rest, row.length = x.length) →
    ∃ w', rows m fuel x dxs M rest w = .ret (w', .OK, M ++ dxs.map fun u => x.map fun k => .fin (J' u k)) ∧ w'.Has J J' ∧
      w'.inst.ctx = w.inst.ctx := by
  intro dxs
  induction dxs with
  | nil =>
    intro M rest w h hl hr
    rw [List.length_eq_zero_iff.1 hl]
    exact ⟨w, rfl, h, rfl⟩
  | cons dx dxs ih =>
    intro M rest w h hl hr
    match rest, hl, hr with
    | row :: rest, hl, hr =>
      obtain ⟨w1, e1, h1, hc1⟩ := FMI3.adjoint_step hJ h dx x fuel (hr row (.head _))
      obtain ⟨w2, e2, h2, hc2⟩ := ih (M := M ++ [x.map fun k => .fin (J' dx k)]) (rest := rest) h1 (by simpa using hl)
        (fun r hr' => hr r (.tail _ hr'))
      refine ⟨w2, ?_, h2, hc2.trans hc1⟩
      simp only [rows, e1, Outcome.ret_bind, if_true]
      rw [e2]
      simp

/-- Both loops give the same matrix. -/
theorem loops_eq (hJ : m.Partial J) {w : FMI3.World XRat D} (h : w.Has J J') {us ks : List Nat} {c : List XRat} {M : List (List XRat)}
    (hc : c.length = us.length) (hM : M.length = us.length) (hr : ∀ row ∈ M, row.length = ks.length) (fuel : Nat) :
    ∃ w' w'', columns m fuel us 0 ks c M w = .ret (w', .OK, us.map fun u => ks.map fun x => .fin (J' u x)) ∧
      rows m fuel ks us [] (us.map fun u => ks.map fun x => .fin (J' u x)) w' = .ret (w'', .OK, us.map fun u => ks.map fun x => .fin (J' u x)) ∧
      w''.inst.ctx = w.inst.ctx := by
  obtain ⟨w', e1, h1, hc1⟩ := columns_eq hJ (fuel := fuel) (i := 0) h hc hM (by simpa using hr)
  have hz : ∀ {M : List (List XRat)} {us : List Nat}, M.length = us.length →
      List.zipWith (fun row u => row.take 0 ++ ks.map fun x => XRat.fin (J' u x)) M us = us.map fun u => ks.map fun x => .fin (J' u x) := by
    intro M
    induction M with
    | nil => intro us hl; rw [List.length_eq_zero_iff.1 hl.symm]; rfl
    | cons row M ih =>
      intro us hl
      match us, hl with
      | u :: us, hl => simp only [List.zipWith_cons_cons, List.take_zero, List.nil_append, List.map_cons, ← ih (by simpa using hl)]
  rw [hz hM] at e1
  obtain ⟨w'', e2, -, hc2⟩ := rows_eq hJ (fuel := fuel) (x := ks) (dxs := us) (M := []) (rest := us.map fun u => ks.map fun x => .fin (J' u x)) h1
    (by simp) (by simp)
  exact ⟨w', w'', e1, e2, hc2.trans hc1⟩

theorem FMI3.terminate_ok {F D : Type} [Arith F] [HasInf F] {m : Model F D} {w : FMI3.World F D} {fuel : Nat}
    (hs : w.inst.ctx.state ∈ FMI3.Spec.allowedIn .terminate) : ∃ w' o, FMI3.step m fuel w .terminate = .ret (w', .OK, o) := by
  have ha := (FMI3.allowed_fn w.inst.ctx .terminate).2 hs
  exact ⟨_, _, by simp only [FMI3.step, FMI3.terminate, FMI3.World.run]; rw [FMI3.begin_ok (mask := FMI3.MASK_Terminate) ha]; rfl⟩

end Verif
