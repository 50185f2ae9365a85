import Verif.Lemmas.Uniform
import Verif.Lemmas.Modes2
import Verif.Lemmas.Modes3
import Verif.Spec.Sequence

/-! # Vectored calls and sequences of single calls -/

set_option linter.unusedSectionVars false

namespace Verif
variable {F D ρ α β : Type} {m : Model F D}

theorem Outcome.bind_assoc' {α β γ : Type} (r : Outcome α) (f : α → Outcome β) (g : β → Outcome γ) :
    ((r >>- f) >>- g) = (r >>- fun a => f a >>- g) := by
  cases r <;> rfl

/-- `each` on the level of instances. -/
def eachC (one : Comp F D → ρ → Res F D α) : Comp F D → List ρ → Res F D (List α)
  | c, [] => .ret (c, .OK, [])
  | c, r :: rs =>
    one c r >>- fun (c, s, o) =>
      if s = .OK then eachC one c rs >>- fun (c, s, os) => .ret (c, s, o :: os)
      else .ret (c, s, [])

theorem eachC_map {one : Comp F D → ρ → Res F D α} {one' : Comp F D → ρ → Res F D β} {f : β → α}
    (P : Comp F D → Prop) (rs : List ρ)
    (h : ∀ c, P c → ∀ r ∈ rs, one c r = one' c r >>- fun (c, s, b) => .ret (c, s, f b))
    (hP : ∀ c, P c → ∀ r ∈ rs, ∀ c' b, one' c r = .ret (c', .OK, b) → P c') (c : Comp F D) (hc : P c) :
    eachC one c rs = eachC one' c rs >>- fun (c, s, l) => .ret (c, s, l.map f) := by
  induction rs generalizing c with
  | nil => rfl
  | cons r rs ih =>
    simp only [eachC, Outcome.bind_assoc', h c hc r (by simp)]
    cases e : one' c r with
    | ub => rfl
    | hang => rfl
    | ret a =>
      obtain ⟨c', s, b⟩ := a
      simp only [Outcome.ret_bind]
      split
      · rename_i hs
        subst hs
        rw [ih (fun c hc r hr => h c hc r (by simp [hr]))
          (fun c hc r hr => hP c hc r (by simp [hr])) c' (hP c hc r (by simp) c' b e)]
        simp only [Outcome.bind_assoc', Outcome.ret_bind, List.map_cons]
      · rfl

theorem FMI2.each_eq [Arith F] [HasInf F] {fuel : Nat} {mk : ρ → FMI2.Op F}
    {one : Comp F D → ρ → Res F D α} {out : α → FMI2.Out F}
    (h : ∀ (w : FMI2.World F D) r, step m fuel w (mk r) = w.run (one w.inst r) out)
    (rs : List ρ) (w : FMI2.World F D) :
    each m fuel mk w rs = eachC one w.inst rs >>- fun (c, s, l) => .ret ({ w with inst := c }, s, l.map out) := by
  induction rs generalizing w with
  | nil => rfl
  | cons r rs ih =>
    simp only [each, eachC, h, World.run, Outcome.bind_assoc', Outcome.ret_bind]
    cases one w.inst r with
    | ub => rfl
    | hang => rfl
    | ret a =>
      obtain ⟨c', s, b⟩ := a
      simp only [Outcome.ret_bind]
      split
      · rw [ih]
        simp only [Outcome.bind_assoc', Outcome.ret_bind, List.map_cons]
      · rfl

theorem FMI3.each_eq [Arith F] [HasInf F] {fuel : Nat} {mk : ρ → FMI3.Op F}
    {one : Comp F D → ρ → Res F D α} {out : α → FMI3.Out F}
    (h : ∀ (w : FMI3.World F D) r, step m fuel w (mk r) = w.run (one w.inst r) out)
    (rs : List ρ) (w : FMI3.World F D) :
    each m fuel mk w rs = eachC one w.inst rs >>- fun (c, s, l) => .ret ({ w with inst := c }, s, l.map out) := by
  induction rs generalizing w with
  | nil => rfl
  | cons r rs ih =>
    simp only [each, eachC, h, World.run, Outcome.bind_assoc', Outcome.ret_bind]
    cases one w.inst r with
    | ub => rfl
    | hang => rfl
    | ret a =>
      obtain ⟨c', s, b⟩ := a
      simp only [Outcome.ret_bind]
      split
      · rw [ih]
        simp only [Outcome.bind_assoc', Outcome.ret_bind, List.map_cons]
      · rfl

/-! ## Reading -/

/-- Read the scalar `r` of a refreshed instance. -/
def rd (m : Model F D) (t : VType) (x : t.Val F) (c : Comp F D) (r : Nat) : Res F D (t.Val F) :=
  m.get t c.ctx c.mv r (some [x]) 1 0 >>- fun (mv, s, p) =>
    match s, p.1 with
    | .OK, some (v :: _) => .ret ({ c with mv := mv }, .OK, v)
    | _, _ => .ret (({ c with mv := mv } : Comp F D).setState .terminated, .Error, x)

theorem rd_ok {t : VType} {x : t.Val F} {c : Comp F D} {r : Nat} {mv v i}
    (h : m.get t c.ctx c.mv r (some [x]) 1 0 = .ret (mv, .OK, (some [v], i))) :
    rd m t x c r = .ret ({ c with mv := mv }, .OK, v) := by
  simp only [rd, h, Outcome.ret_bind]

theorem rd_err {t : VType} {x : t.Val F} {c : Comp F D} {r : Nat} {mv p}
    (h : m.get t c.ctx c.mv r (some [x]) 1 0 = .ret (mv, .Error, p)) :
    rd m t x c r = .ret (({ c with mv := mv } : Comp F D).setState .terminated, .Error, x) := by
  simp only [rd, h, Outcome.ret_bind]

theorem rd_ub {t : VType} {x : t.Val F} {c : Comp F D} {r : Nat}
    (h : m.get t c.ctx c.mv r (some [x]) 1 0 = .ub) : rd m t x c r = .ub := by
  simp only [rd, h]; rfl

/-- A refreshed instance stays refreshed when read. -/
theorem rd_clean {t : VType} {r : Nat} (hu : m.UniGet t r) {x : t.Val F} {c c' : Comp F D}
    (hc : c.mv.isDirtyValues = false) {v} (h : rd m t x c r = .ret (c', .OK, v)) :
    c'.mv.isDirtyValues = false ∧ c'.ctx = c.ctx := by
  have hx := hu.uni c.ctx c.mv [x] 1 0 x (by omega) (by simp)
  generalize e : m.get t c.ctx c.mv r (some [x]) 1 0 = g at hx
  cases hx with
  | ok mv v =>
    rw [rd_ok (i := 1) e] at h
    cases h
    exact ⟨hu.clean _ _ _ _ _ _ _ _ e hc, rfl⟩
  | err mv => rw [rd_err e] at h; cases h
  | ub => rw [rd_ub e] at h; cases h

theorem getLoop_each {t : VType} (x : t.Val F) {N : Nat} {vr : Ptr Nat} (rs : List Nat)
    (hu : ∀ r ∈ rs, m.UniGet t r) (c : Comp F D) (i : Nat) (l : List (t.Val F))
    (hc : c.mv.isDirtyValues = false) (hl : i + rs.length ≤ l.length) (hN : i + rs.length ≤ N)
    (hvr : ∀ k r, rs[k]? = some r → Ptr.read vr (i + k) = .ret r) :
    getLoop m t vr N rs.length i c .OK (some l) i =
      eachC (rd m t x) c rs >>- fun (c, s, vs) =>
        .ret (c, s, (some (l.take i ++ vs ++ l.drop (i + vs.length)), i + vs.length)) := by
  induction rs generalizing c i l with
  | nil => simp [getLoop, eachC]
  | cons r rs ih =>
    simp only [List.length_cons] at hl hN
    have h0 : Ptr.read vr i = .ret r := hvr 0 r rfl
    simp only [List.length_cons, getLoop, h0, Outcome.ret_bind, eachC]
    have hx := (hu r (by simp)).uni c.ctx c.mv l N i x (by omega) (by omega)
    generalize e : m.get t c.ctx c.mv r (some [x]) 1 0 = g at hx
    generalize e' : m.get t c.ctx c.mv r (some l) N i = g' at hx
    cases hx with
    | ok mv v =>
      rw [rd_ok (i := 1) e]
      simp only [Comp.lift, Outcome.ret_bind, call, Status.rank, if_true]
      have hcl := (hu r (by simp)).clean _ _ _ _ _ _ _ _ e hc
      simp only [gt_iff_lt, Nat.lt_irrefl, if_false]
      rw [ih (fun r hr => hu r (by simp [hr])) { c with mv := mv } (i + 1) (l.set i v) hcl (by simp; omega) (by omega)
        (fun k r h => by have := hvr (k + 1) r (by simpa using h); rw [← this]; congr 1; omega)]
      simp only [Outcome.bind_assoc', Outcome.ret_bind, List.length_cons]
      congr 1
      funext ⟨c, s, vs⟩
      have hi : i < l.length := by omega
      have e1 : List.take (i + 1) (l.set i v) = l.take i ++ [v] := by
        rw [List.take_add_one, List.take_set_of_le (by omega)]
        simp [hi]
      have e2 : List.drop (i + 1 + vs.length) (l.set i v) = l.drop (i + (vs.length + 1)) := by
        rw [List.drop_set_of_lt (by omega)]; congr 1; omega
      simp only [e1, e2, List.append_assoc, List.cons_append, List.nil_append]
      congr 4
      omega
    | err mv =>
      rw [rd_err e]
      simp [Comp.lift, call, Status.rank]
    | ub => rw [rd_ub e]; rfl


/-- The result `r` of a vectored call and the result `q` of the single calls fit together: same
worlds and statuses, and the outputs of the single calls fill the front of the array `l`. -/
def Fits (l : List α) (r : Res F D (Ptr α)) (q : Res F D (List (Ptr α))) : Prop :=
  ∃ o : Res F D (List α),
    q = (o >>- fun (c, s, vs) => .ret (c, s, vs.map fun v => some [v])) ∧
    r = (o >>- fun (c, s, vs) => .ret (c, s, some (vs ++ l.drop vs.length)))

/-- The function-entry check in front of both. -/
theorem Fits.begin {al : Ctx F → Bool} {name : String} {c : Comp F D} {l : List α} {x : α}
    {k : Comp F D → Res F D (Ptr α)} {one : Comp F D → ρ → Res F D (Ptr α)} {rs : List ρ} (hne : rs ≠ [])
    (h : Fits l (k c) (eachC one c rs))
    (hP : ∀ c : Comp F D, ∀ r ∈ rs, ∀ c' b, one c r = .ret (c', .OK, b) → c'.ctx = c.ctx) :
    Fits l (beginFunction (al c.ctx) name c (some l) k)
      (eachC (fun c r => beginFunction (al c.ctx) name c (some [x]) fun c => one c r) c rs) := by
  cases ha : al c.ctx with
  | true =>
    have e1 : beginFunction true name c (some l) k = k c := rfl
    have e2 := eachC_map (one := fun c r => beginFunction (al c.ctx) name c (some [x]) fun c => one c r)
      (one' := one) (f := id) (fun c' => c'.ctx = c.ctx) rs
      (fun c' hc r hr => by
        simp only [beginFunction, hc, ha, if_true]
        cases one c' r <;> rfl)
      (fun c' hc r hr c'' b e => (hP c' r hr c'' b e).trans hc) c rfl
    rw [e1, e2]
    obtain ⟨o, h1, h2⟩ := h
    refine ⟨o, ?_, h2⟩
    rw [h1]
    cases o <;> simp
  | false =>
    cases rs with
    | nil => exact absurd rfl hne
    | cons r rs =>
      refine ⟨.ret ((c.logError (name ++ ": Illegal call sequence.")).setState .terminated, .Error, []), ?_, ?_⟩
      · simp [eachC, beginFunction, ha]
      · simp [beginFunction]


namespace FMI2

theorem single_get {t : VType} {x : t.Val F} {c : Comp F D} {r : Nat} (hu : m.UniGet t r)
    (hc : c.mv.isDirtyValues = false) :
    getVariables m t (some [r]) 1 (some [x]) c = rd m t x c r >>- fun (c, s, v) => .ret (c, s, some [v]) := by
  have h := getLoop_each (m := m) x (N := 1) (vr := some [r]) [r] (by simpa using hu) c 0 [x] hc (by simp)
    (by simp) (by intro k r' h; cases k <;> simp_all [Ptr.read])
  simp only [List.length_cons, List.length_nil] at h
  simp only [getVariables, assertNonNull, Option.isNone_some, Bool.false_eq_true, if_false,
    Nat.one_ne_zero, refresh, hc, h, eachC, Outcome.bind_assoc']
  have hx := hu.uni c.ctx c.mv [x] 1 0 x (by omega) (by simp)
  generalize e : m.get t c.ctx c.mv r (some [x]) 1 0 = g at hx
  cases hx with
  | ok mv v => rw [rd_ok (i := 1) e]; rfl
  | err mv => rw [rd_err e]; rfl
  | ub => rw [rd_ub e]; rfl

/-- A dirty instance is either refreshed, or both ways of reading fail alike. -/
theorem dirty_get (hm : OkOrError m) {t : VType} (c : Comp F D) :
    (∃ c1 : Comp F D, c1.mv.isDirtyValues = false ∧ c1.ctx = c.ctx ∧ ∀ (rs : List Nat) (l : List (t.Val F)), rs ≠ [] →
      getVariables m t (some rs) rs.length (some l) c = getVariables m t (some rs) rs.length (some l) c1) ∨
    (∃ c1 : Comp F D, ∀ (rs : List Nat) (l : List (t.Val F)), rs ≠ [] →
      getVariables m t (some rs) rs.length (some l) c = .ret (c1, .Error, some l)) ∨
    (∀ (rs : List Nat) (l : List (t.Val F)), rs ≠ [] →
      getVariables m t (some rs) rs.length (some l) c = .ub) ∨
    (∀ (rs : List Nat) (l : List (t.Val F)), rs ≠ [] →
      getVariables m t (some rs) rs.length (some l) c = .hang) := by
  cases hd : c.mv.isDirtyValues with
  | false => exact .inl ⟨c, hd, rfl, fun _ _ _ => rfl⟩
  | true =>
    have hne : ∀ rs : List Nat, rs ≠ [] → rs.length ≠ 0 := by simp
    cases e : m.calculateValues c.ctx c.mv with
    | ub =>
      refine .inr (.inr (.inl fun rs l h => ?_))
      simp [getVariables, assertNonNull, hne rs h, refresh, hd, e, Comp.lift, call]
    | hang =>
      refine .inr (.inr (.inr fun rs l h => ?_))
      simp [getVariables, assertNonNull, hne rs h, refresh, hd, e, Comp.lift, call]
    | ret a =>
      obtain ⟨mv, s, ⟨⟩⟩ := a
      rcases hm _ _ _ _ _ (.calc e) with rfl | rfl
      · refine .inl ⟨({ c with mv := mv } : Comp F D).setDirty false, rfl, rfl, fun rs l h => ?_⟩
        simp [getVariables, assertNonNull, hne rs h, refresh, hd, e, Comp.lift, call, Comp.setDirty, Status.rank]
      · refine .inr (.inl ⟨({ c with mv := mv } : Comp F D).setState .terminated, fun rs l h => ?_⟩)
        simp [getVariables, assertNonNull, hne rs h, refresh, hd, e, Comp.lift, call, Status.rank]

/-- The vectored getter of FMI 2.0 and the sequence of single gets. -/
theorem getVariables_each (hm : OkOrError m) {t : VType} (x : t.Val F) (rs : List Nat)
    (hu : ∀ r ∈ rs, m.UniGet t r) (c : Comp F D) (l : List (t.Val F)) (hl : rs.length ≤ l.length) :
    ∃ o : Res F D (List (t.Val F)),
      eachC (fun c r => getVariables m t (some [r]) 1 (some [x]) c) c rs =
        (o >>- fun (c, s, vs) => .ret (c, s, vs.map fun v => some [v])) ∧
      getVariables m t (some rs) rs.length (some l) c =
        (o >>- fun (c, s, vs) => .ret (c, s, some (vs ++ l.drop vs.length))) ∧
      ∀ c' vs s, o = .ret (c', s, vs) → s = .OK → c'.ctx = c.ctx := by
  cases rs with
  | nil => exact ⟨.ret (c, .OK, []), rfl, by simp [getVariables], by intro c' vs s e _; cases e; rfl⟩
  | cons r rs =>
    have key : ∀ c : Comp F D, c.mv.isDirtyValues = false → 
        eachC (fun c r => getVariables m t (some [r]) 1 (some [x]) c) c (r :: rs) =
          (eachC (rd m t x) c (r :: rs) >>- fun (c, s, vs) => .ret (c, s, vs.map fun v => some [v])) ∧
        getVariables m t (some (r :: rs)) (r :: rs).length (some l) c =
          (eachC (rd m t x) c (r :: rs) >>- fun (c, s, vs) => .ret (c, s, some (vs ++ l.drop vs.length))) := by
      intro c hc
      constructor
      · exact eachC_map (fun c => c.mv.isDirtyValues = false) (r :: rs)
          (fun c hc r hr => single_get (hu r hr) hc)
          (fun c hc r hr c' b e => (rd_clean (hu r hr) hc e).1) c hc
      · have h := getLoop_each (m := m) x (N := (r :: rs).length) (vr := some (r :: rs)) (r :: rs) hu c 0 l hc (by omega)
          (by omega) (by intro k r' h; simp [Ptr.read, h])
        unfold getVariables
        rw [if_neg (by simp)]
        simp only [assertNonNull, Option.isNone_some, Bool.false_eq_true, if_false, refresh, hc]
        rw [h]
        simp [Outcome.bind_assoc']
    have ctxkey : ∀ (rs : List Nat), (∀ r ∈ rs, m.UniGet t r) → ∀ c : Comp F D, c.mv.isDirtyValues = false → ∀ c' vs s,
        eachC (rd m t x) c rs = .ret (c', s, vs) → s = .OK → c'.ctx = c.ctx := by
      intro rs
      induction rs with
      | nil => intro _ c _ c' vs s e _; cases e; rfl
      | cons r rs ih =>
        intro hu c hc c' vs s e hs
        simp only [eachC] at e
        cases e1 : rd m t x c r with
        | ub => rw [e1] at e; cases e
        | hang => rw [e1] at e; cases e
        | ret a =>
          obtain ⟨c1, s1, v⟩ := a
          rw [e1] at e
          simp only [Outcome.ret_bind] at e
          split at e
          · rename_i h1; subst h1
            obtain ⟨h1, h2⟩ := rd_clean (hu r (by simp)) hc e1
            cases e2 : eachC (rd m t x) c1 rs with
            | ub => rw [e2] at e; cases e
            | hang => rw [e2] at e; cases e
            | ret a =>
              obtain ⟨c2, s2, v2⟩ := a
              rw [e2] at e
              cases e
              exact (ih (fun r hr => hu r (by simp [hr])) c1 h1 _ _ _ e2 hs).trans h2
          · cases e; rename_i h; exact absurd hs h
    have first : ∀ c c1 : Comp F D, getVariables m t (some [r]) 1 (some [x]) c = getVariables m t (some [r]) 1 (some [x]) c1 →
        eachC (fun c r => getVariables m t (some [r]) 1 (some [x]) c) c (r :: rs) =
        eachC (fun c r => getVariables m t (some [r]) 1 (some [x]) c) c1 (r :: rs) := by
      intro c c1 h; simp only [eachC, h]
    rcases dirty_get (t := t) hm c with ⟨c1, h1, h2, h3⟩ | ⟨c1, h⟩ | h | h
    · refine ⟨eachC (rd m t x) c1 (r :: rs), ?_, ?_, fun c' vs s e hs => (ctxkey _ hu c1 h1 c' vs s e hs).trans h2⟩
      · rw [first c c1 (h3 [r] [x] (by simp))]; exact (key c1 h1).1
      · rw [h3 (r :: rs) l (by simp)]; exact (key c1 h1).2
    · refine ⟨.ret (c1, .Error, []), ?_, ?_, by intro c' vs s e hs; cases e; cases hs⟩
      · have := h [r] [x] (by simp)
        simp only [List.length_cons, List.length_nil] at this
        simp [eachC, this]
      · rw [h _ _ (by simp)]; simp
    · refine ⟨.ub, ?_, ?_, by intro c' vs s e; cases e⟩
      · have := h [r] [x] (by simp)
        simp only [List.length_cons, List.length_nil] at this
        simp [eachC, this]
      · rw [h _ _ (by simp)]; rfl
    · refine ⟨.hang, ?_, ?_, by intro c' vs s e; cases e⟩
      · have := h [r] [x] (by simp)
        simp only [List.length_cons, List.length_nil] at this
        simp [eachC, this]
      · rw [h _ _ (by simp)]; rfl


theorem single_ctx (hm : OkOrError m) {t : VType} {x : t.Val F} {r : Nat} (hu : m.UniGet t r)
    {c c' : Comp F D} {b} (h : getVariables m t (some [r]) 1 (some [x]) c = .ret (c', .OK, b)) :
    c'.ctx = c.ctx := by
  obtain ⟨o, -, h2, h3⟩ := getVariables_each hm x [r] (by simpa using hu) c [x] (by simp)
  simp only [List.length_cons, List.length_nil] at h2
  rw [h2] at h
  cases o with
  | ub => cases h
  | hang => cases h
  | ret a =>
    obtain ⟨c1, s1, v⟩ := a
    cases h
    exact h3 _ _ _ rfl rfl

theorem get_fits (hm : OkOrError m) {mask : Nat} {name : String} {t : VType} (x : t.Val F) {rs : List Nat} (hne : rs ≠ [])
    (hu : ∀ r ∈ rs, m.UniGet t r) (c : Comp F D) (l : List (t.Val F)) (hl : rs.length ≤ l.length) :
    Fits l (FMI2.begin mask name c (some l) fun c => getVariables m t (some rs) rs.length (some l) c)
      (eachC (fun c r => FMI2.begin mask name c (some [x]) fun c =>
        getVariables m t (some [r]) 1 (some [x]) c) c rs) := by
  obtain ⟨o, h1, h2, -⟩ := getVariables_each hm x rs hu c l hl
  exact Fits.begin (al := fun ctx => allowed ctx mask) hne ⟨o, h1, h2⟩ fun c r hr c' b e => single_ctx hm (hu r hr) e

/-- From instances to the API. -/
theorem fits_step [Arith F] [HasInf F] {fuel : Nat} {l : List α} {rs : List ρ} {w w' : World F D} {s : Status} {o : Out F}
    {op : Op F} {mk : ρ → Op F} {k : Comp F D → Res F D (Ptr α)} {one : Comp F D → ρ → Res F D (Ptr α)}
    {out : Ptr α → Out F}
    (h1 : FMI2.step m fuel w op = w.run (k w.inst) out)
    (h2 : ∀ (w : World F D) r, FMI2.step m fuel w (mk r) = w.run (one w.inst r) out)
    (h : Fits l (k w.inst) (eachC one w.inst rs)) (hi : ∀ p q, out (some p) = out (some q) → p = q) :
    FMI2.step m fuel w op = .ret (w', s, o) ↔
      ∃ vs : List α, each m fuel mk w rs = .ret (w', s, vs.map fun v => out (some [v])) ∧
        o = out (some (vs ++ l.drop vs.length)) := by
  obtain ⟨q, e1, e2⟩ := h
  rw [h1, each_eq h2, e1, e2]
  cases q with
  | ub => simp [World.run]
  | hang => simp [World.run]
  | ret a =>
    obtain ⟨c, s', vs⟩ := a
    simp only [World.run, Outcome.ret_bind, Outcome.ret.injEq, Prod.mk.injEq, List.map_map]
    constructor
    · rintro ⟨rfl, rfl, rfl⟩; exact ⟨vs, ⟨rfl, rfl, rfl⟩, rfl⟩
    · rintro ⟨vs', ⟨rfl, rfl, h⟩, rfl⟩
      have : vs = vs' := by
        refine List.map_inj_right (f := fun v => out (some [v])) ?_ |>.1 h
        intro a b hab
        simpa using hi _ _ hab
      subst this
      exact ⟨rfl, rfl, rfl⟩

end FMI2

theorem refresh_congr (hm : OkOrError m) {c : Comp F D} {stop : β} {k k' : Comp F D → Status → Res F D β}
    (h : ∀ c1 : Comp F D, c1.mv.isDirtyValues = false → k c1 .OK = k' c1 .OK) :
    refresh m .OK c stop k = refresh m .OK c stop k' := by
  unfold refresh
  split
  · cases e : m.calculateValues c.ctx c.mv with
    | ub => rfl
    | hang => rfl
    | ret a =>
      obtain ⟨mv, s, u⟩ := a
      rcases hm _ _ _ _ _ (.calc e) with rfl | rfl
      · simp only [Comp.lift, Outcome.ret_bind, call, Status.rank]
        exact h _ rfl
      · rfl
  · rename_i hd
    exact h c (by simpa using hd)

theorem eachC_length {one : Comp F D → ρ → Res F D α} {rs : List ρ} {c c' : Comp F D} {vs}
    (h : eachC one c rs = .ret (c', .OK, vs)) : vs.length = rs.length := by
  induction rs generalizing c vs with
  | nil => cases h; rfl
  | cons r rs ih =>
    simp only [eachC] at h
    cases e : one c r with
    | ub => rw [e] at h; cases h
    | hang => rw [e] at h; cases h
    | ret a =>
      obtain ⟨c1, s1, v⟩ := a
      rw [e] at h
      simp only [Outcome.ret_bind] at h
      split at h
      · cases e2 : eachC one c1 rs with
        | ub => rw [e2] at h; cases h
        | hang => rw [e2] at h; cases h
        | ret a =>
          obtain ⟨c2, s2, v2⟩ := a
          rw [e2] at h
          cases h
          simp [ih e2]
      · cases h; contradiction

theorem eachC_status {one : Comp F D → ρ → Res F D α} (hs : ∀ c r c' s b, one c r = .ret (c', s, b) → s = .OK ∨ s = .Error)
    {rs : List ρ} {c c' : Comp F D} {s vs}
    (h : eachC one c rs = .ret (c', s, vs)) : s = .OK ∨ s = .Error := by
  induction rs generalizing c vs with
  | nil => cases h; exact .inl rfl
  | cons r rs ih =>
    simp only [eachC] at h
    cases e : one c r with
    | ub => rw [e] at h; cases h
    | hang => rw [e] at h; cases h
    | ret a =>
      obtain ⟨c1, s1, v⟩ := a
      rw [e] at h
      simp only [Outcome.ret_bind] at h
      split at h
      · cases e2 : eachC one c1 rs with
        | ub => rw [e2] at h; cases h
        | hang => rw [e2] at h; cases h
        | ret a =>
          obtain ⟨c2, s2, v2⟩ := a
          rw [e2] at h
          cases h
          exact ih e2
      · cases h; exact hs _ _ _ _ _ e

theorem rd_status {t : VType} {x : t.Val F} {c c' : Comp F D} {r s b}
    (h : rd m t x c r = .ret (c', s, b)) : s = .OK ∨ s = .Error := by
  unfold rd at h
  cases e : m.get t c.ctx c.mv r (some [x]) 1 0 with
  | ub => rw [e] at h; cases h
  | hang => rw [e] at h; cases h
  | ret a =>
    obtain ⟨mv, s, p⟩ := a
    rw [e] at h
    simp only [Outcome.ret_bind] at h
    split at h <;> cases h <;> simp

namespace FMI3

/-- With the right number of values the FMI 3.0 getter does what the FMI 2.0 getter does. -/
theorem getVars_eq (hm : OkOrError m) {t : VType} {rs : List Nat} (hne : rs ≠ [])
    (hu : ∀ r ∈ rs, m.UniGet t r) (c : Comp F D) (l : List (t.Val F)) (hl : rs.length ≤ l.length) :
    getVars m t c (some rs) rs.length (some l) rs.length =
      begin MASK_Get (getName t) c (some l) fun c => FMI2.getVariables m t (some rs) rs.length (some l) c := by
  have hpos : 0 < rs.length := List.length_pos_iff.2 hne
  simp only [getVars, FMI2.getVariables, if_neg (show rs.length ≠ 0 by omega), assertNonNull, Option.isNone_some,
    Bool.false_eq_true, if_false, gt_iff_lt, hpos, if_true]
  congr 1
  funext c
  apply refresh_congr hm
  intro c1 hc1
  have hx : l ≠ [] := by intro h; subst h; exact hne (List.length_eq_zero_iff.1 (Nat.le_zero.1 hl))
  obtain ⟨x, l', rfl⟩ : ∃ x l', l = x :: l' := by cases l with | nil => exact absurd rfl hx | cons x l => exact ⟨x, l, rfl⟩
  rw [getLoop_each x rs hu c1 0 (x :: l') hc1 (by omega) (by omega) (by intro k r h; simp [Ptr.read, h])]
  cases e : eachC (rd m t x) c1 rs with
  | ub => rfl
  | hang => rfl
  | ret a =>
    obtain ⟨c2, s2, vs⟩ := a
    simp only [Outcome.ret_bind]
    rcases eachC_status (fun _ _ _ _ _ => rd_status) e with rfl | rfl
    · have := eachC_length e
      simp [this]
    · simp

theorem get_fits (hm : OkOrError m) {t : VType} (x : t.Val F) {rs : List Nat} (hne : rs ≠ [])
    (hu : ∀ r ∈ rs, m.UniGet t r) (c : Comp F D) (l : List (t.Val F)) (hl : rs.length ≤ l.length) :
    Fits l (getVars m t c (some rs) rs.length (some l) rs.length)
      (eachC (fun c r => getVars m t c (some [r]) 1 (some [x]) 1) c rs) := by
  obtain ⟨o, h1, h2, -⟩ := FMI2.getVariables_each hm x rs hu c l hl
  rw [getVars_eq hm hne hu c l hl]
  have := eachC_map (one := fun c r => getVars m t c (some [r]) 1 (some [x]) 1)
    (one' := fun c r => begin MASK_Get (getName t) c (some [x]) fun c => FMI2.getVariables m t (some [r]) 1 (some [x]) c)
    (f := id) (fun _ => True) rs (fun c _ r hr => by
      rw [show getVars m t c (some [r]) 1 (some [x]) 1 = _ from
        getVars_eq hm (rs := [r]) (by simp) (by simpa using hu r hr) c [x] (by simp)]
      simp only [List.length_cons, List.length_nil, id]
      cases begin MASK_Get (getName t) c (some [x]) fun c => FMI2.getVariables m t (some [r]) (0 + 1) (some [x]) c <;> rfl)
    (fun _ _ _ _ _ _ _ => trivial) c trivial
  rw [this]
  have h := Fits.begin (al := fun ctx => allowed ctx MASK_Get) (name := getName t) (x := x) hne ⟨o, h1, h2⟩
    fun c r hr c' b e => FMI2.single_ctx hm (hu r hr) e
  obtain ⟨o, h1, h2⟩ := h
  refine ⟨o, ?_, h2⟩
  have h1' : eachC (fun c r => begin MASK_Get (getName t) c (some [x]) fun c => FMI2.getVariables m t (some [r]) 1 (some [x]) c) c rs = _ := h1
  rw [h1']
  cases o <;> simp

/-- From instances to the API. -/
theorem fits_step [Arith F] [HasInf F] {fuel : Nat} {l : List α} {rs : List ρ} {w w' : World F D} {s : Status} {o : Out F}
    {op : Op F} {mk : ρ → Op F} {k : Comp F D → Res F D (Ptr α)} {one : Comp F D → ρ → Res F D (Ptr α)}
    {out : Ptr α → Out F}
    (h1 : FMI3.step m fuel w op = w.run (k w.inst) out)
    (h2 : ∀ (w : World F D) r, FMI3.step m fuel w (mk r) = w.run (one w.inst r) out)
    (h : Fits l (k w.inst) (eachC one w.inst rs)) (hi : ∀ p q, out (some p) = out (some q) → p = q) :
    FMI3.step m fuel w op = .ret (w', s, o) ↔
      ∃ vs : List α, each m fuel mk w rs = .ret (w', s, vs.map fun v => out (some [v])) ∧
        o = out (some (vs ++ l.drop vs.length)) := by
  obtain ⟨q, e1, e2⟩ := h
  rw [h1, each_eq h2, e1, e2]
  cases q with
  | ub => simp [World.run]
  | hang => simp [World.run]
  | ret a =>
    obtain ⟨c, s', vs⟩ := a
    simp only [World.run, Outcome.ret_bind, Outcome.ret.injEq, Prod.mk.injEq, List.map_map]
    constructor
    · rintro ⟨rfl, rfl, rfl⟩; exact ⟨vs, ⟨rfl, rfl, rfl⟩, rfl⟩
    · rintro ⟨vs', ⟨rfl, rfl, h⟩, rfl⟩
      have : vs = vs' := by
        refine List.map_inj_right (f := fun v => out (some [v])) ?_ |>.1 h
        intro a b hab
        simpa using hi _ _ hab
      subst this
      exact ⟨rfl, rfl, rfl⟩

end FMI3

/-! ## FMI 2.0 Booleans -/

namespace FMI2

theorem rd_ctx {t : VType} {x : t.Val F} {c c' : Comp F D} {r b}
    (h : rd m t x c r = .ret (c', .OK, b)) : c'.ctx = c.ctx := by
  unfold rd at h
  cases e : m.get t c.ctx c.mv r (some [x]) 1 0 with
  | ub => rw [e] at h; cases h
  | hang => rw [e] at h; cases h
  | ret a =>
    obtain ⟨mv, s, p⟩ := a
    rw [e] at h
    simp only [Outcome.ret_bind] at h
    split at h <;> cases h <;> rfl

theorem getBooleanLoop_each {N : Nat} {vr : Ptr Nat} (rs : List Nat)
    (hu : ∀ r ∈ rs, m.UniGet .boolean r) (c : Comp F D) (i : Nat) (l : List Int)
    (hl : i + rs.length ≤ l.length) (hN : i + rs.length ≤ N)
    (hvr : ∀ k r, rs[k]? = some r → Ptr.read vr (i + k) = .ret r) :
    getBooleanLoop m vr N rs.length i c .OK (some l) =
      eachC (rd m .boolean false) c rs >>- fun (c, s, vs) =>
        .ret (c, s, some (l.take i ++ vs.map (fun v : Bool => if v then 1 else 0) ++ l.drop (i + vs.length))) := by
  induction rs generalizing c i l with
  | nil => simp [getBooleanLoop, eachC]
  | cons r rs ih =>
    simp only [List.length_cons] at hl hN
    have h0 : Ptr.read vr i = .ret r := hvr 0 r rfl
    simp only [List.length_cons, getBooleanLoop, h0, Outcome.ret_bind, eachC]
    have hx := (hu r (by simp)).uni c.ctx c.mv [false] N 0 false (by omega) (by simp)
    generalize e : m.get .boolean c.ctx c.mv r (some [false]) 1 0 = g at hx
    generalize e' : m.get .boolean c.ctx c.mv r (some [false]) N 0 = g' at hx
    cases hx with
    | ok mv v =>
      rw [rd_ok (i := 1) e]
      have hi : i < l.length := by omega
      have hr : Ptr.read (some (List.set [false] 0 v)) 0 = .ret v := rfl
      simp only [Comp.lift, Outcome.ret_bind, call, Status.rank, if_true, hr, Ptr.write, if_pos hi]
      simp only [gt_iff_lt, Nat.lt_irrefl, if_false]
      change Bool at v
      rw [ih (fun r hr => hu r (by simp [hr])) { c with mv := mv } (i + 1) _ (by simp; omega) (by omega)
        (fun k r h => by have := hvr (k + 1) r (by simpa using h); rw [← this]; congr 1; omega)]
      simp only [Outcome.bind_assoc', Outcome.ret_bind, List.length_cons]
      congr 1
      funext ⟨c, s, vs⟩
      have e1 : ∀ v : Int, List.take (i + 1) (l.set i v) = l.take i ++ [v] := by
        intro v
        rw [List.take_add_one, List.take_set_of_le (by omega)]
        simp [hi]
      have e2 : ∀ v : Int, List.drop (i + 1 + vs.length) (l.set i v) = l.drop (i + (vs.length + 1)) := by
        intro v
        rw [List.drop_set_of_lt (by omega)]; congr 1; omega
      simp only [e1, e2, List.append_assoc, List.cons_append, List.nil_append, List.map_cons]
    | err mv =>
      rw [rd_err e]
      simp [Comp.lift, call, Status.rank]
    | ub => rw [rd_ub e]; rfl

theorem getBoolean_fits (x : Int) {rs : List Nat} (hne : rs ≠ [])
    (hu : ∀ r ∈ rs, m.UniGet .boolean r) (c : Comp F D) (l : List Int) (hl : rs.length ≤ l.length) :
    Fits l (getBoolean m c (some rs) rs.length (some l))
      (eachC (fun c r => getBoolean m c (some [r]) 1 (some [x])) c rs) := by
  have h1 : ∀ c : Comp F D, ∀ r ∈ rs, getBooleanLoop m (some [r]) 1 1 0 c .OK (some [x]) =
      eachC (rd m .boolean false) c [r] >>- fun (c, s, vs) =>
        .ret (c, s, some (vs.map (fun v : Bool => if v then 1 else 0) ++ [x].drop vs.length)) := by
    intro c r hr
    have := getBooleanLoop_each (m := m) (N := 1) (vr := some [r]) [r] (by simpa using hu r hr) c 0 [x] (by simp) (by simp)
      (by intro k r' h; cases k <;> simp_all [Ptr.read])
    simp only [List.length_cons, List.length_nil] at this
    rw [this]
    simp
  have h1' : ∀ c : Comp F D, ∀ r ∈ rs, getBooleanLoop m (some [r]) 1 1 0 c .OK (some [x]) =
      rd m .boolean false c r >>- fun (c, s, v) =>
        .ret (c, s, some [if s = .OK then if (v : Bool) then (1 : Int) else 0 else x]) := by
    intro c r hr
    rw [h1 c r hr]
    simp only [eachC, Outcome.bind_assoc']
    cases e : rd m .boolean false c r with
    | ub => rfl
    | hang => rfl
    | ret a =>
      obtain ⟨c1, s1, v⟩ := a
      simp only [Outcome.ret_bind]
      split <;> rename_i h <;> simp [h]
  let rdI : Comp F D → Nat → Res F D Int := fun c r => rd m .boolean false c r >>- fun (c, s, v) =>
        .ret (c, s, if s = .OK then if (v : Bool) then (1 : Int) else 0 else x)
  have e1 := eachC_map (one := fun c r => getBooleanLoop m (some [r]) 1 1 0 c .OK (some [x])) (one' := rdI)
    (f := fun v => some [v]) (fun _ => True) rs
    (fun c _ r hr => by rw [h1' c r hr]; simp only [rdI, Outcome.bind_assoc', Outcome.ret_bind])
    (fun _ _ _ _ _ _ _ => trivial) c trivial
  have e2 : ∀ (rs : List Nat) (c : Comp F D), eachC rdI c rs = eachC (rd m .boolean false) c rs >>- fun (c, s, vs) =>
      .ret (c, s, vs.map (fun v : Bool => if v then (1 : Int) else 0)) := by
    intro rs
    induction rs with
    | nil => intro c; rfl
    | cons r rs ih =>
      intro c
      simp only [eachC, rdI, Outcome.bind_assoc', Outcome.ret_bind]
      cases e : rd m .boolean false c r with
      | ub => rfl
      | hang => rfl
      | ret a =>
        obtain ⟨c1, s1, v⟩ := a
        simp only [Outcome.ret_bind]
        split
        · have := ih c1
          simp only [rdI] at this
          rw [this]
          simp [Outcome.bind_assoc']
        · rfl
  refine Fits.begin (al := fun ctx => allowed ctx MASK_GetReal) (name := "fmi2GetBoolean") (x := x)
    (k := fun c => getBooleanLoop m (some rs) rs.length rs.length 0 c .OK (some l)) hne ⟨_, e1, ?_⟩ ?_
  · rw [e2]
    have := getBooleanLoop_each (m := m) (N := rs.length) (vr := some rs) rs hu c 0 l (by omega) (by omega)
      (by intro k r' h; simp [Ptr.read, h])
    rw [this]
    simp [Outcome.bind_assoc']
  · intro c r hr c' b e
    rw [h1' c r hr] at e
    cases e3 : rd m .boolean false c r with
    | ub => rw [e3] at e; cases e
    | hang => rw [e3] at e; cases e
    | ret a =>
      obtain ⟨c1, s1, v⟩ := a
      rw [e3] at e
      cases e
      exact rd_ctx e3

end FMI2

/-! ## Writing -/

/-- Set the scalar `p.1` to `p.2`. -/
def wr (m : Model F D) (t : VType) (c : Comp F D) (p : Nat × t.Val F) : Res F D Unit :=
  m.set t c.ctx c.mv p.1 (some [p.2]) 1 0 >>- fun (mv, s, _) =>
    match s with
    | .OK => .ret (({ c with mv := mv } : Comp F D).setDirty true, .OK, ())
    | _ => .ret (({ c with mv := mv } : Comp F D).setState .terminated, .Error, ())

theorem wr_ok {t : VType} {c : Comp F D} {r : Nat} {v : t.Val F} {mv i}
    (h : m.set t c.ctx c.mv r (some [v]) 1 0 = .ret (mv, .OK, i)) :
    wr m t c (r, v) = .ret (({ c with mv := mv } : Comp F D).setDirty true, .OK, ()) := by
  simp only [wr, h, Outcome.ret_bind]

theorem wr_err {t : VType} {c : Comp F D} {r : Nat} {v : t.Val F} {mv i}
    (h : m.set t c.ctx c.mv r (some [v]) 1 0 = .ret (mv, .Error, i)) :
    wr m t c (r, v) = .ret (({ c with mv := mv } : Comp F D).setState .terminated, .Error, ()) := by
  simp only [wr, h, Outcome.ret_bind]

theorem wr_ub {t : VType} {c : Comp F D} {r : Nat} {v : t.Val F}
    (h : m.set t c.ctx c.mv r (some [v]) 1 0 = .ub) : wr m t c (r, v) = .ub := by
  simp only [wr, h]; rfl

theorem wr_ctx {t : VType} {c c' : Comp F D} {p : Nat × t.Val F} {b}
    (h : wr m t c p = .ret (c', .OK, b)) : c'.ctx = c.ctx := by
  unfold wr at h
  cases e : m.set t c.ctx c.mv p.1 (some [p.2]) 1 0 with
  | ub => rw [e] at h; cases h
  | hang => rw [e] at h; cases h
  | ret a =>
    obtain ⟨mv, s, p⟩ := a
    rw [e] at h
    simp only [Outcome.ret_bind] at h
    split at h <;> cases h <;> rfl

theorem wr_status {t : VType} {c c' : Comp F D} {p : Nat × t.Val F} {s b}
    (h : wr m t c p = .ret (c', s, b)) : s = .OK ∨ s = .Error := by
  unfold wr at h
  cases e : m.set t c.ctx c.mv p.1 (some [p.2]) 1 0 with
  | ub => rw [e] at h; cases h
  | hang => rw [e] at h; cases h
  | ret a =>
    obtain ⟨mv, s, p⟩ := a
    rw [e] at h
    simp only [Outcome.ret_bind] at h
    split at h <;> cases h <;> simp

/-- What follows the loop of a setter, src/fmi2Functions.c 55-58. -/
def setEnd (r : Res F D Nat) : Res F D Unit :=
  r >>- fun (c, st, _) =>
  if st = .Discard ∨ st = .Error ∨ st = .Fatal then .ret (c, st, ())
  else .ret (c.setDirty true, st, ())

theorem setDirty_self {c : Comp F D} (h : c.mv.isDirtyValues = true) : c.setDirty true = c := by
  obtain ⟨_, ⟨_, _, _, _, _, _, _, _, _, _⟩⟩ := c
  simp only at h
  simp [Comp.setDirty, h]

theorem setLoop_each {t : VType} {N : Nat} {vr : Ptr Nat} {vals : List (t.Val F)} (ps : List (Nat × t.Val F))
    (hu : ∀ p ∈ ps, m.MarkSet t p.1) (c : Comp F D) (i : Nat)
    (hd : ps = [] → c.mv.isDirtyValues = true) (hN : i + ps.length = N)
    (hvr : ∀ k p, ps[k]? = some p → Ptr.read vr (i + k) = .ret p.1 ∧ vals[i + k]? = some p.2) :
    setEnd (setLoop m t vr (some vals) N ps.length i c .OK i) =
      eachC (wr m t) c ps >>- fun (c, s, _) => .ret (c, s, ()) := by
  induction ps generalizing c i with
  | nil =>
    simp only [List.length_nil, setLoop, eachC, setEnd, Outcome.ret_bind]
    simp [setDirty_self (hd rfl)]
  | cons p ps ih =>
    obtain ⟨r, v⟩ := p
    simp only [List.length_cons] at hN
    obtain ⟨h0, hv⟩ := hvr 0 (r, v) rfl
    simp only [Nat.add_zero] at h0 hv
    have hmk := hu (r, v) (by simp)
    simp only [List.length_cons, setLoop, h0, Outcome.ret_bind, eachC]
    have hx := hmk.uni c.ctx c.mv c.mv.isDirtyValues vals N i v (by omega) hv
    generalize e : m.set t c.ctx { c.mv with isDirtyValues := c.mv.isDirtyValues } r (some [v]) 1 0 = g at hx
    generalize e' : m.set t c.ctx c.mv r (some vals) N i = g' at hx
    cases hx with
    | ok mv b'' =>
      rw [wr_ok e]
      have hdm := hmk.marks _ _ _ _ _ _ _ e'
      simp only [Comp.lift, Outcome.ret_bind, call, Status.rank, if_true, gt_iff_lt, Nat.lt_irrefl, if_false]
      have e4 : ({ c with mv := { mv with isDirtyValues := b'' } } : Comp F D).setDirty true = { c with mv := mv } := by
        obtain ⟨_, _, _, _, _, _, _, _, _, _⟩ := mv
        simp only at hdm
        simp [Comp.setDirty, hdm]
      rw [e4, ih (fun p hp => hu p (by simp [hp])) { c with mv := mv } (i + 1) (fun _ => hdm) (by omega)
        (fun k p h => by
          have := hvr (k + 1) p (by simpa using h)
          rw [show i + 1 + k = i + (k + 1) by omega]; exact this)]
      simp only [Outcome.bind_assoc', Outcome.ret_bind]
    | err tr =>
      rw [wr_err e]
      simp [Comp.lift, call, Status.rank, setEnd]
    | ub => rw [wr_ub e]; rfl

/-- Forget the dirty flag of a result. -/
def undirty (r : Res F D Unit) : Res F D Unit := r >>- fun (c, s, u) => .ret (c.setDirty true, s, u)

theorem setLoop_each' {t : VType} {N : Nat} {vr : Ptr Nat} {vals : List (t.Val F)} (ps : List (Nat × t.Val F))
    (hu : ∀ p ∈ ps, m.UniSet t p.1) (c c' : Comp F D) (i : Nat) (hc : c'.setDirty true = c.setDirty true)
    (hN : i + ps.length = N)
    (hvr : ∀ k p, ps[k]? = some p → Ptr.read vr (i + k) = .ret p.1 ∧ vals[i + k]? = some p.2) :
    undirty (setEnd (setLoop m t vr (some vals) N ps.length i c .OK i)) =
      undirty (eachC (wr m t) c' ps >>- fun (c, s, _) => .ret (c, s, ())) := by
  induction ps generalizing c c' i with
  | nil =>
    simp only [List.length_nil, setLoop, eachC, setEnd, Outcome.ret_bind, undirty]
    simp only [reduceCtorEq, or_self, if_false, Outcome.ret_bind]
    rw [hc]; rfl
  | cons p ps ih =>
    obtain ⟨r, v⟩ := p
    simp only [List.length_cons] at hN
    obtain ⟨h0, hv⟩ := hvr 0 (r, v) rfl
    simp only [Nat.add_zero] at h0 hv
    have hmk := hu (r, v) (by simp)
    simp only [List.length_cons, setLoop, h0, Outcome.ret_bind, eachC]
    have hx := hmk.uni c.ctx c.mv c'.mv.isDirtyValues vals N i v (by omega) hv
    obtain ⟨b, rfl⟩ : ∃ b, c' = c.setDirty b := by
      refine ⟨c'.mv.isDirtyValues, ?_⟩
      have : c' = (c'.setDirty true).setDirty c'.mv.isDirtyValues := rfl
      rw [this, hc]
      rfl
    change US _ b _ _ (m.set t c.ctx { c.mv with isDirtyValues := b } r (some [v]) 1 0) at hx
    generalize e : m.set t c.ctx { c.mv with isDirtyValues := b } r (some [v]) 1 0 = g at hx
    generalize e' : m.set t c.ctx c.mv r (some vals) N i = g' at hx
    change m.set t (c.setDirty b).ctx (c.setDirty b).mv r (some [v]) 1 0 = g at e
    cases hx with
    | ok mv b'' =>
      rw [wr_ok e]
      simp only [Comp.lift, Outcome.ret_bind, call, Status.rank, if_true, gt_iff_lt, Nat.lt_irrefl, if_false]
      rw [ih (fun p hp => hu p (by simp [hp])) { c with mv := mv }
        (({ c.setDirty b with mv := { mv with isDirtyValues := b'' } } : Comp F D).setDirty true) (i + 1) rfl (by omega)
        (fun k p h => by
          have := hvr (k + 1) p (by simpa using h)
          rw [show i + 1 + k = i + (k + 1) by omega]; exact this)]
      simp only [Outcome.bind_assoc', Outcome.ret_bind, undirty]
    | err tr =>
      rw [wr_err e]
      simp [Comp.lift, call, Status.rank, setEnd, undirty, Comp.setState, Comp.setDirty]
    | ub => rw [wr_ub e]; rfl

theorem setLoop_index {t : VType} {N : Nat} {vr : Ptr Nat} {vals : List (t.Val F)} (ps : List (Nat × t.Val F))
    (hu : ∀ p ∈ ps, m.UniSet t p.1) (c : Comp F D) (i : Nat) (hN : i + ps.length = N)
    (hvr : ∀ k p, ps[k]? = some p → Ptr.read vr (i + k) = .ret p.1 ∧ vals[i + k]? = some p.2) {c' s j}
    (h : setLoop m t vr (some vals) N ps.length i c .OK i = .ret (c', s, j)) :
    s = .Error ∨ s = .OK ∧ j = N := by
  induction ps generalizing c i with
  | nil =>
    simp only [List.length_nil, setLoop] at h
    cases h; exact .inr ⟨rfl, hN⟩
  | cons p ps ih =>
    obtain ⟨r, v⟩ := p
    simp only [List.length_cons] at hN
    obtain ⟨h0, hv⟩ := hvr 0 (r, v) rfl
    simp only [Nat.add_zero] at h0 hv
    have hmk := hu (r, v) (by simp)
    simp only [List.length_cons, setLoop, h0, Outcome.ret_bind] at h
    have hx := hmk.uni c.ctx c.mv c.mv.isDirtyValues vals N i v (by omega) hv
    generalize e : m.set t c.ctx { c.mv with isDirtyValues := c.mv.isDirtyValues } r (some [v]) 1 0 = g at hx
    generalize e' : m.set t c.ctx c.mv r (some vals) N i = g' at hx h
    cases hx with
    | ok mv b'' =>
      simp only [Comp.lift, Outcome.ret_bind, call, Status.rank, if_true, gt_iff_lt, Nat.lt_irrefl, if_false] at h
      exact ih (fun p hp => hu p (by simp [hp])) { c with mv := mv } (i + 1) (by omega)
        (fun k p h => by
          have := hvr (k + 1) p (by simpa using h)
          rw [show i + 1 + k = i + (k + 1) by omega]; exact this) h
    | err tr =>
      cases h; exact .inl rfl
    | ub => cases h


theorem US.first {mv₀ : MV F D} {b' : Bool} {i : Nat} {r r' : MRes F D Nat} (h : US mv₀ b' i r r') :
    (∃ mv, r = .ret (mv, .OK, i + 1)) ∨ (∃ tr, r = .ret ({ mv₀ with trace := tr }, .Error, i)) ∨ r = .ub := by
  cases h
  · exact .inl ⟨_, rfl⟩
  · exact .inr (.inl ⟨_, rfl⟩)
  · exact .inr (.inr rfl)

theorem wr_cases {t : VType} {r : Nat} (hu : m.UniSet t r) (c : Comp F D) (v : t.Val F) :
    (∃ mv, m.set t c.ctx c.mv r (some [v]) 1 0 = .ret (mv, .OK, 1)) ∨
    (∃ tr, m.set t c.ctx c.mv r (some [v]) 1 0 = .ret ({ c.mv with trace := tr }, .Error, 0)) ∨
    m.set t c.ctx c.mv r (some [v]) 1 0 = .ub :=
  (hu.uni c.ctx c.mv true [v] 1 0 v (by omega) rfl).first

theorem FMI2.single_set {t : VType} {c : Comp F D} {r : Nat} {v : t.Val F} (hu : m.UniSet t r) :
    setVariables m t (some [r]) 1 (some [v]) c = wr m t c (r, v) := by
  simp only [setVariables, assertNonNull, Option.isNone_some, Bool.false_eq_true, if_false,
    Nat.one_ne_zero, setLoop]
  rcases wr_cases hu c v with ⟨mv, e⟩ | ⟨mv, e⟩ | e
  · rw [wr_ok e]
    simp [Ptr.read, e, Comp.lift, call, Status.rank]
  · rw [wr_err e]
    simp [Ptr.read, e, Comp.lift, call, Status.rank]
  · rw [wr_ub e]
    simp [Ptr.read, e, Comp.lift, call]

theorem pairs_read {t : VType} (ps : List (Nat × t.Val F)) : ∀ k p, ps[k]? = some p →
    Ptr.read (some (ps.map Prod.fst)) (0 + k) = .ret p.1 ∧ (ps.map Prod.snd)[0 + k]? = some p.2 := by
  intro k p h
  simp [Ptr.read, h]

theorem FMI2.setVariables_eq {t : VType} {ps : List (Nat × t.Val F)} (hne : ps ≠ []) (c : Comp F D) :
    setVariables m t (some (ps.map Prod.fst)) ps.length (some (ps.map Prod.snd)) c =
      setEnd (setLoop m t (some (ps.map Prod.fst)) (some (ps.map Prod.snd)) ps.length ps.length 0 c .OK 0) := by
  have : ps.length ≠ 0 := by simpa using hne
  simp only [setVariables, if_neg this, assertNonNull, Option.isNone_some, Bool.false_eq_true, if_false]
  rfl

/-- The function-entry check in front of a sequence of sets. -/
theorem each_begin {al : Ctx F → Bool} {name : String} {c : Comp F D} {one : Comp F D → ρ → Res F D Unit}
    {rs : List ρ} (hne : rs ≠ [])
    (hP : ∀ c : Comp F D, ∀ r ∈ rs, ∀ c' b, one c r = .ret (c', .OK, b) → c'.ctx = c.ctx) :
    (eachC (fun c r => beginFunction (al c.ctx) name c () fun c => one c r) c rs >>- fun (c, s, _) => .ret (c, s, ())) =
      beginFunction (al c.ctx) name c () fun c => eachC one c rs >>- fun (c, s, _) => .ret (c, s, ()) := by
  cases ha : al c.ctx with
  | true =>
    have e2 := eachC_map (one := fun c r => beginFunction (al c.ctx) name c () fun c => one c r)
      (one' := one) (f := id) (fun c' => c'.ctx = c.ctx) rs
      (fun c' hc r hr => by
        simp only [beginFunction, hc, ha, if_true]
        cases one c' r <;> rfl)
      (fun c' hc r hr c'' b e => (hP c' r hr c'' b e).trans hc) c rfl
    rw [e2]
    simp [Outcome.bind_assoc', beginFunction]
  | false =>
    cases rs with
    | nil => exact absurd rfl hne
    | cons r rs => simp [eachC, beginFunction, ha]

theorem begin_undirty {al : Bool} {name : String} {c : Comp F D} {k k' : Comp F D → Res F D Unit}
    (h : undirty (k c) = undirty (k' c)) :
    undirty (beginFunction al name c () k) = undirty (beginFunction al name c () k') := by
  cases al
  · rfl
  · exact h

theorem FMI2.set_each {mask : Nat} {name : String} {t : VType} {ps : List (Nat × t.Val F)} (hne : ps ≠ [])
    (hu : ∀ p ∈ ps, m.MarkSet t p.1) (c : Comp F D) :
    (begin mask name c () fun c =>
        setVariables m t (some (ps.map Prod.fst)) ps.length (some (ps.map Prod.snd)) c) =
      eachC (fun c (p : Nat × t.Val F) => begin mask name c () fun c =>
        setVariables m t (some [p.1]) 1 (some [p.2]) c) c ps >>- fun (c, s, _) => .ret (c, s, ()) := by
  have h : ∀ c : Comp F D, ∀ p ∈ ps, setVariables m t (some [p.1]) 1 (some [p.2]) c = wr m t c p :=
    fun c p hp => single_set (hu p hp).toUniSet
  have e := each_begin (al := fun ctx => allowed ctx mask) (name := name) (c := c)
    (one := fun c (p : Nat × t.Val F) => setVariables m t (some [p.1]) 1 (some [p.2]) c) hne
    (fun c r hr c' b e => wr_ctx (b := b) ((h c r hr).symm.trans e))
  refine Eq.trans ?_ e.symm
  show beginFunction _ _ _ _ _ = _
  congr 1
  funext c
  rw [setVariables_eq hne, setLoop_each ps hu c 0 (fun h => absurd h hne) (by omega) (pairs_read ps)]
  have e2 := eachC_map (one := fun c (p : Nat × t.Val F) => setVariables m t (some [p.1]) 1 (some [p.2]) c)
    (one' := wr m t) (f := id) (fun _ => True) ps
    (fun c _ p hp => by rw [h c p hp]; cases wr m t c p <;> rfl) (fun _ _ _ _ _ _ _ => trivial) c trivial
  rw [e2]
  simp [Outcome.bind_assoc']

namespace FMI3

/-- With the right number of values the FMI 3.0 setter does what the FMI 2.0 setter does. -/
theorem setVars_eq {t : VType} {ps : List (Nat × t.Val F)} (hne : ps ≠ [])
    (hu : ∀ p ∈ ps, m.UniSet t p.1) (c : Comp F D) :
    setVars m t c (some (ps.map Prod.fst)) ps.length (some (ps.map Prod.snd)) ps.length =
      begin (setMask t) (setName t) c () fun c =>
        FMI2.setVariables m t (some (ps.map Prod.fst)) ps.length (some (ps.map Prod.snd)) c := by
  have hn : ps.length ≠ 0 := by simpa using hne
  simp only [setVars, FMI2.setVariables_eq hne, if_neg hn, assertNonNull, Option.isNone_some, Bool.false_eq_true, if_false]
  congr 1
  funext c
  unfold setEnd
  cases e : setLoop m t (some (ps.map Prod.fst)) (some (ps.map Prod.snd)) ps.length ps.length 0 c .OK 0 with
  | ub => rfl
  | hang => rfl
  | ret a =>
    obtain ⟨c', s, j⟩ := a
    rcases setLoop_index ps hu c 0 (by omega) (pairs_read ps) e with rfl | ⟨rfl, rfl⟩ <;> simp

theorem single_set {t : VType} {c : Comp F D} {r : Nat} {v : t.Val F} (hu : m.UniSet t r) :
    setVars m t c (some [r]) 1 (some [v]) 1 =
      begin (setMask t) (setName t) c () fun c => wr m t c (r, v) := by
  have := setVars_eq (m := m) (ps := [(r, v)]) (by simp) (by simpa using hu) c
  simp only [List.map_cons, List.map_nil, List.length_cons, List.length_nil] at this
  rw [this]
  congr 1
  funext c
  exact FMI2.single_set hu

theorem each_wr {t : VType} {ps : List (Nat × t.Val F)} (hne : ps ≠ [])
    (hu : ∀ p ∈ ps, m.UniSet t p.1) (c : Comp F D) :
    (eachC (fun c (p : Nat × t.Val F) => setVars m t c (some [p.1]) 1 (some [p.2]) 1) c ps >>-
        fun (c, s, _) => .ret (c, s, ())) =
      begin (setMask t) (setName t) c () fun c =>
        eachC (wr m t) c ps >>- fun (c, s, _) => .ret (c, s, ()) := by
  have e2 := eachC_map (one := fun c (p : Nat × t.Val F) => setVars m t c (some [p.1]) 1 (some [p.2]) 1)
    (one' := fun c p => begin (setMask t) (setName t) c () fun c => wr m t c p) (f := id) (fun _ => True) ps
    (fun c _ p hp => by
      rw [single_set (hu p hp)]
      cases begin (setMask t) (setName t) c () fun c => wr m t c (p.1, p.2) <;> rfl)
    (fun _ _ _ _ _ _ _ => trivial) c trivial
  rw [e2]
  have e := each_begin (al := fun ctx => allowed ctx (setMask t)) (name := setName t) (c := c)
    (one := wr m t) hne (fun c r hr c' b e => wr_ctx (b := b) e)
  refine Eq.trans ?_ e
  simp [Outcome.bind_assoc']
  rfl

theorem set_each {t : VType} {ps : List (Nat × t.Val F)} (hne : ps ≠ [])
    (hu : ∀ p ∈ ps, m.MarkSet t p.1) (c : Comp F D) :
    setVars m t c (some (ps.map Prod.fst)) ps.length (some (ps.map Prod.snd)) ps.length =
      eachC (fun c (p : Nat × t.Val F) => setVars m t c (some [p.1]) 1 (some [p.2]) 1) c ps >>-
        fun (c, s, _) => .ret (c, s, ()) := by
  rw [setVars_eq hne (fun p hp => (hu p hp).toUniSet), each_wr hne (fun p hp => (hu p hp).toUniSet)]
  congr 1
  funext c
  rw [FMI2.setVariables_eq hne, setLoop_each ps hu c 0 (fun h => absurd h hne) (by omega) (pairs_read ps)]

theorem set_each' {t : VType} {ps : List (Nat × t.Val F)} (hne : ps ≠ [])
    (hu : ∀ p ∈ ps, m.UniSet t p.1) (c : Comp F D) :
    undirty (setVars m t c (some (ps.map Prod.fst)) ps.length (some (ps.map Prod.snd)) ps.length) =
      undirty (eachC (fun c (p : Nat × t.Val F) => setVars m t c (some [p.1]) 1 (some [p.2]) 1) c ps >>-
        fun (c, s, _) => .ret (c, s, ())) := by
  rw [setVars_eq hne hu, each_wr hne hu]
  apply begin_undirty
  rw [FMI2.setVariables_eq hne, setLoop_each' ps hu c c 0 rfl (by omega) (pairs_read ps)]

end FMI3

namespace FMI2

theorem setBooleanLoop_each {N : Nat} {vr : Ptr Nat} {vals : List Int} (ps : List (Nat × Int))
    (hu : ∀ p ∈ ps, m.MarkSet .boolean p.1) (c : Comp F D) (i : Nat) (hN : i + ps.length ≤ N)
    (hvr : ∀ k p, ps[k]? = some p → Ptr.read vr (i + k) = .ret p.1 ∧ Ptr.read (some vals) (i + k) = .ret p.2) :
    setBooleanLoop m vr N (some vals) ps.length i c .OK =
      eachC (fun c (p : Nat × Int) => wr m .boolean c (p.1, decide (p.2 ≠ 0))) c ps >>- fun (c, s, _) => .ret (c, s, ()) := by
  induction ps generalizing c i with
  | nil => rfl
  | cons p ps ih =>
    obtain ⟨r, v⟩ := p
    simp only [List.length_cons] at hN
    obtain ⟨h0, hv⟩ := hvr 0 (r, v) rfl
    simp only [Nat.add_zero] at h0 hv
    have hmk := hu (r, v) (by simp)
    simp only [List.length_cons, setBooleanLoop, h0, hv, Outcome.ret_bind, eachC]
    have hx := hmk.uni c.ctx c.mv c.mv.isDirtyValues [decide (v ≠ 0)] N 0 (decide (v ≠ 0)) (by omega) rfl
    generalize e : m.set .boolean c.ctx { c.mv with isDirtyValues := c.mv.isDirtyValues } r (some [decide (v ≠ 0)]) 1 0 = g at hx
    generalize e' : m.set .boolean c.ctx c.mv r (some [decide (v ≠ 0)]) N 0 = g' at hx
    cases hx with
    | ok mv b'' =>
      rw [wr_ok e]
      have hdm := hmk.marks _ _ _ _ _ _ _ e'
      simp only [Comp.lift, Outcome.ret_bind, call, Status.rank, if_true, gt_iff_lt, Nat.lt_irrefl, if_false]
      have e4 : ({ c with mv := { mv with isDirtyValues := b'' } } : Comp F D).setDirty true = { c with mv := mv } := by
        obtain ⟨_, _, _, _, _, _, _, _, _, _⟩ := mv
        simp only at hdm
        simp [Comp.setDirty, hdm]
      rw [e4, ih (fun p hp => hu p (by simp [hp])) { c with mv := mv } (i + 1) (by omega)
        (fun k p h => by
          have := hvr (k + 1) p (by simpa using h)
          rw [show i + 1 + k = i + (k + 1) by omega]; exact this)]
      simp only [Outcome.bind_assoc', Outcome.ret_bind]
    | err tr =>
      rw [wr_err e]
      simp [Comp.lift, call, Status.rank]
    | ub => rw [wr_ub e]; rfl

theorem setBooleanLoop_single {p : Nat × Int} (hu : m.MarkSet .boolean p.1) (c : Comp F D) :
    setBooleanLoop m (some [p.1]) 1 (some [p.2]) 1 0 c .OK = wr m .boolean c (p.1, decide (p.2 ≠ 0)) := by
  have := setBooleanLoop_each (m := m) (N := 1) (vr := some [p.1]) (vals := [p.2]) [p] (by simpa using hu) c 0
    (by simp) (by intro k q h; cases k <;> simp_all [Ptr.read])
  simp only [List.length_cons, List.length_nil] at this
  rw [this]
  simp only [eachC, Outcome.bind_assoc']
  cases wr m .boolean c (p.1, decide (p.2 ≠ 0)) with
  | ub => rfl
  | hang => rfl
  | ret a =>
    obtain ⟨c', s, u⟩ := a
    simp only [Outcome.ret_bind]
    split <;> rename_i h <;> simp [h]

theorem setBoolean_each {ps : List (Nat × Int)} (hne : ps ≠ [])
    (hu : ∀ p ∈ ps, m.MarkSet .boolean p.1) (c : Comp F D) :
    setBoolean m c (some (ps.map Prod.fst)) ps.length (some (ps.map Prod.snd)) =
      eachC (fun c (p : Nat × Int) => setBoolean m c (some [p.1]) 1 (some [p.2])) c ps >>-
        fun (c, s, _) => .ret (c, s, ()) := by
  have h : ∀ c : Comp F D, ∀ p ∈ ps, setBooleanLoop m (some [p.1]) 1 (some [p.2]) 1 0 c .OK =
      wr m .boolean c (p.1, decide (p.2 ≠ 0)) := fun c p hp => setBooleanLoop_single (hu p hp) c
  have e := each_begin (al := fun ctx => allowed ctx MASK_SetInteger) (name := "fmi2SetBoolean") (c := c)
    (one := fun c (p : Nat × Int) => setBooleanLoop m (some [p.1]) 1 (some [p.2]) 1 0 c .OK) hne
    (fun c r hr c' b e => wr_ctx (b := b) ((h c r hr).symm.trans e))
  refine Eq.trans ?_ e.symm
  unfold setBoolean FMI2.begin
  congr 1
  funext c
  rw [setBooleanLoop_each ps hu c 0 (by omega) (by intro k p h; simp [Ptr.read, h])]
  have e2 := eachC_map (one := fun c (p : Nat × Int) => setBooleanLoop m (some [p.1]) 1 (some [p.2]) 1 0 c .OK)
    (one' := fun c (p : Nat × Int) => wr m .boolean c (p.1, decide (p.2 ≠ 0))) (f := id) (fun _ => True) ps
    (fun c _ p hp => by rw [h c p hp]; cases wr m .boolean c (p.1, decide (p.2 ≠ 0)) <;> rfl)
    (fun _ _ _ _ _ _ _ => trivial) c trivial
  rw [e2]
  simp [Outcome.bind_assoc']

/-- From instances to the API. -/
theorem set_step [Arith F] [HasInf F] {fuel : Nat} {rs : List ρ} {w : World F D}
    {op : Op F} {mk : ρ → Op F} {k : Comp F D → Res F D Unit} {one : Comp F D → ρ → Res F D Unit}
    (h1 : FMI2.step m fuel w op = w.run (k w.inst) fun _ => .unit)
    (h2 : ∀ (w : World F D) r, FMI2.step m fuel w (mk r) = w.run (one w.inst r) fun _ => .unit)
    (h : k w.inst = eachC one w.inst rs >>- fun (c, s, _) => .ret (c, s, ())) :
    FMI2.step m fuel w op = each m fuel mk w rs >>- fun (w', s, _) => .ret (w', s, .unit) := by
  rw [h1, each_eq h2, h]
  simp [World.run, Outcome.bind_assoc']

end FMI2

namespace FMI3

theorem set_step [Arith F] [HasInf F] {fuel : Nat} {rs : List ρ} {w : World F D}
    {op : Op F} {mk : ρ → Op F} {k : Comp F D → Res F D Unit} {one : Comp F D → ρ → Res F D Unit}
    (h1 : FMI3.step m fuel w op = w.run (k w.inst) fun _ => .unit)
    (h2 : ∀ (w : World F D) r, FMI3.step m fuel w (mk r) = w.run (one w.inst r) fun _ => .unit)
    (h : k w.inst = eachC one w.inst rs >>- fun (c, s, _) => .ret (c, s, ())) :
    FMI3.step m fuel w op = each m fuel mk w rs >>- fun (w', s, _) => .ret (w', s, .unit) := by
  rw [h1, each_eq h2, h]
  simp [World.run, Outcome.bind_assoc']

end FMI3
end Verif

namespace Verif
variable {F D : Type} {m : Model F D}

theorem FMI3.setVars_dirty {t : VType} {ps : List (Nat × t.Val F)} (hne : ps ≠ [])
    (hu : ∀ p ∈ ps, m.UniSet t p.1) {c c' : Comp F D}
    (h : setVars m t c (some (ps.map Prod.fst)) ps.length (some (ps.map Prod.snd)) ps.length = .ret (c', .OK, ())) :
    c'.setDirty true = c' := by
  rw [setVars_eq hne hu, FMI3.begin, beginFunction] at h
  split at h
  · rw [FMI2.setVariables_eq hne, setEnd] at h
    obtain ⟨⟨c1, s1, i⟩, -, h⟩ := Outcome.bind_eq_ret.1 h
    simp only at h
    split at h
    · rename_i hs; cases h; simp at hs
    · cases h; rfl
  · cases h

theorem eachC_wr_dirty {t : VType} (ps : List (Nat × t.Val F)) : ∀ {c c' : Comp F D} {l},
    (ps = [] → c.setDirty true = c) → eachC (wr m t) c ps = .ret (c', .OK, l) → c'.setDirty true = c' := by
  induction ps with
  | nil => intro c c' l hc h; cases h; exact hc rfl
  | cons p ps ih =>
    intro c c' l _ h
    simp only [eachC] at h
    obtain ⟨⟨c1, s1, i⟩, e1, h⟩ := Outcome.bind_eq_ret.1 h
    simp only at h
    split at h
    · rename_i hs; subst hs
      obtain ⟨⟨c2, s2, l2⟩, e2, h⟩ := Outcome.bind_eq_ret.1 h
      cases h
      refine ih (fun _ => ?_) e2
      unfold wr at e1
      obtain ⟨⟨mv, s, j⟩, -, e1⟩ := Outcome.bind_eq_ret.1 e1
      simp only at e1
      split at e1 <;> cases e1
      rfl
    · cases h; contradiction

theorem FMI3.each_dirty {t : VType} {ps : List (Nat × t.Val F)} (hne : ps ≠ [])
    (hu : ∀ p ∈ ps, m.UniSet t p.1) {c c' : Comp F D}
    (h : (eachC (fun c (p : Nat × t.Val F) => setVars m t c (some [p.1]) 1 (some [p.2]) 1) c ps >>-
      fun (c, s, _) => .ret (c, s, ())) = .ret (c', .OK, ())) : c'.setDirty true = c' := by
  rw [each_wr hne hu, FMI3.begin, beginFunction] at h
  split at h
  · obtain ⟨⟨c1, s1, l⟩, e, h⟩ := Outcome.bind_eq_ret.1 h
    cases h
    exact eachC_wr_dirty ps (fun h => absurd h hne) e
  · cases h

end Verif
