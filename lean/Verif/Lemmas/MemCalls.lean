import Verif.Lemmas.Mem

/-! Lemmas for C75: calls on instances in memory have the effect of the calls on values. -/

set_option linter.unusedSectionVars false

namespace Verif
namespace Mem
variable {F D : Type}

/-- Name and resource location. -/
def Labels (c d : Comp F D) : Prop := d.instanceName = c.instanceName ∧ d.ctx.resourceLocation = c.ctx.resourceLocation

variable [Arith F] [HasInf F]

theorem labels2 (m : Model F D) (c : Comp F D) : FMI2.HistInv m fun d => Labels c d where
  lift h _ _ := h
  log _ h := h
  dirty _ h := h
  adv h _ := h
  iu h _ := h
  ncp _ h := h
  nx h := h
  nz h := h
  x _ h := h
  dx _ h := h
  z _ h := h
  prez _ h := h
  flags _ _ h := h
  term h := h
  setup _ _ h _ := h
  enterInit h _ := h
  exitInit h _ := h
  reset h := Outcome.all_ret.2 h
  restore h _ := h
  enterEvent h _ := h
  enterCT h _ := h
  setTime _ h _ := h

theorem labels3 (m : Model F D) (c : Comp F D) : FMI3.HistInv m fun d => Labels c d where
  lift h _ _ := h
  log _ h := h
  dirty _ h := h
  adv h _ := h
  iu h _ := h
  ncp _ h := h
  nx h := h
  nz h := h
  x _ h := h
  dx _ h := h
  z _ h := h
  prez _ h := h
  flags _ _ h := h
  term h := h
  enterInit _ _ h _ := h
  exitInit h _ := h
  enterConfig h _ := h
  exitConfig h _ := h
  reset h := Outcome.all_ret.2 h
  restore h _ := h
  enterEvent h _ := h
  enterCT h _ := h
  enterStep h _ := h
  setTime _ h _ := h

/-- The operations on FMU states. -/
def onStates3 : FMI3.Op F → Bool
  | .getFMUState .. | .setFMUState .. | .freeFMUState .. | .serializeFMUState .. | .deserializeFMUState .. => true
  | _ => false

/-- The operations on FMU states. -/
def onStates2 : FMI2.Op F → Bool
  | .getFMUstate .. | .setFMUstate .. | .freeFMUstate .. | .serializeFMUstate .. | .deSerializeFMUstate .. => true
  | _ => false

theorem plain3 {m : Model F D} {fuel : Nat} {w : FMI3.World F D} {op : FMI3.Op F} (h : onStates3 op = false) :
    FMI3.step m fuel w op = FMI3.step m fuel (FMI3.World.fresh w.inst) op >>- fun (w', st, o) => .ret ({ w with inst := w'.inst }, st, o) := by
  cases op <;> first
    | (simp [onStates3] at h; done)
    | simp only [FMI3.step, FMI3.World.run, FMI3.World.fresh, Outcome.bind_assoc, Outcome.ret_bind]

theorem plain2 {m : Model F D} {fuel : Nat} {w : FMI2.World F D} {op : FMI2.Op F} (h : onStates2 op = false) :
    FMI2.step m fuel w op = FMI2.step m fuel (FMI2.World.fresh w.inst) op >>- fun (w', st, o) => .ret ({ w with inst := w'.inst }, st, o) := by
  cases op <;> first
    | (simp [onStates2] at h; done)
    | simp only [FMI2.step, FMI2.World.run, FMI2.World.fresh, Outcome.bind_assoc, Outcome.ret_bind]

theorem call3_plain {lib : CLib} {m : Model F D} {fuel : Nat} {s : State F D} {i a : Nat} {op : FMI3.Op F} (ha : s.inst i = some a)
    (h : onStates3 op = false) : call3 lib m fuel s i op = s.access a >>- fun (c, n, r) =>
      FMI3.step m fuel (FMI3.World.fresh c) op >>- fun (w, st, o) => s.leave lib a c w.inst n r >>- fun s => .ret (s, st, o) := by
  unfold call3
  simp only [ha]
  cases op <;> first
    | (simp [onStates3] at h; done)
    | rfl

theorem call2_plain {lib : CLib} {m : Model F D} {fuel : Nat} {s : State F D} {i a : Nat} {op : FMI2.Op F} (ha : s.inst i = some a)
    (h : onStates2 op = false) : call2 lib m fuel s i op = s.access a >>- fun (c, n, r) =>
      FMI2.step m fuel (FMI2.World.fresh c) op >>- fun (w, st, o) => s.leave lib a c w.inst n r >>- fun s => .ret (s, st, o) := by
  unfold call2
  simp only [ha]
  cases op <;> first
    | (simp [onStates2] at h; done)
    | rfl

/-- What a call in memory can be, compared with the call on values. -/
inductive Same3 (lib : CLib) (s : State F D) (i : Nat) (w : FMI3.World F D) (op : FMI3.Op F) :
    Outcome (FMI3.World F D × Status × FMI3.Out F) → Outcome (State F D × Status × FMI3.Out F) → Prop
  | ret {w' st o s' role'} : Inv s' role' → After s s' i w'.inst w'.slots w'.bufs → Same3 lib s i w op (.ret (w', st, o)) (.ret (s', st, o))
  | ub : Same3 lib s i w op .ub .ub
  | hang : Same3 lib s i w op .hang .hang
  | save {x j s' role'} : op = .getFMUState j → ¬lib.Reliable .save → Inv s' role' →
      After s s' i ((w.inst.logError "Failed to allocate memory.").setState .terminated) w.slots w.bufs → Same3 lib s i w op x (.ret (s', .Error, .unit))
  | load {x b n j s' role'} : op = .deserializeFMUState b n j → ¬lib.Reliable .load → Inv s' role' →
      After s s' i w.inst w.slots w.bufs → Same3 lib s i w op x (.ret (s', .Error, .unit))

/-- Combine the change of the FMU states with the change of the instance. -/
theorem After.trans {s s1 s2 : State F D} {i : Nat} {c : Comp F D} {slots bufs} (hi : ∀ k, s1.theInstance k = s.theInstance k)
    (hv : s1.inst = s.inst) (hs : ∀ j, s1.theState j = slots j) (hb : s1.bufs = bufs) (h : After s1 s2 i c s1.theState s1.bufs) :
    After s s2 i c slots bufs :=
  ⟨h.inst, fun k hk => (h.insts k hk).trans (hi k), fun j => (h.states j).trans (hs j), h.bufs.trans hb, h.vars.trans hv⟩

theorem call3_same {lib : CLib} {m : Model F D} (hm : OkOrError m) (hr : lib.Reliable .message) (fuel : Nat) {s : State F D} {role}
    (h : Inv s role) {i : Nat} {c : Comp F D} (hc : s.theInstance i = some c) (op : FMI3.Op F) :
    Same3 lib s i ⟨c, s.theState, s.bufs⟩ op (FMI3.step m fuel ⟨c, s.theState, s.bufs⟩ op) (call3 lib m fuel s i op) := by
  obtain ⟨a, ha⟩ : ∃ a, s.inst i = some a := by
    cases e : s.inst i with
    | none => simp [State.theInstance, e] at hc
    | some a => exact ⟨a, rfl⟩
  obtain ⟨c', n, r, h1, h2, h3⟩ := h.access ha
  have : c' = c := by rw [hc] at h3; cases h3; rfl
  subst this
  by_cases hp : onStates3 op = false
  · rw [call3_plain ha hp, plain3 hp, h2, Outcome.ret_bind]
    simp only []
    cases e : FMI3.step m fuel (FMI3.World.fresh c') op with
    | ub => exact .ub
    | hang => exact .hang
    | ret x =>
      obtain ⟨w1, st, o⟩ := x
      have hl := (FMI3.step_inv hm (labels3 m c') (FMI3.WInv.fresh ⟨rfl, rfl⟩) op _ e).inst
      obtain ⟨s2, g1, g2, g3⟩ := h.leave (c := c') hr ha h1 hl.1 hl.2
      simp only [Outcome.ret_bind, g1]
      exact .ret g2 g3
  · have fin : ∀ {d : Comp F D} {s1 : State F D} {role1} {slots bufs}, Labels c' d → Inv s1 role1 → s1.inst = s.inst → s1.heap a = s.heap a →
        (∀ k, s1.theInstance k = s.theInstance k) → (∀ j, s1.theState j = slots j) → s1.bufs = bufs →
        ∃ s2, s1.leave lib a c' d n r = .ret s2 ∧ Inv s2 role1 ∧ After s s2 i d slots bufs := by
      intro d s1 role1 slots bufs hl g1 g2 g3 g4 g5 g6
      obtain ⟨s2, k1, k2, k3⟩ := g1.leave (c := c') (c' := d) hr (i := i) (a := a) (by rw [g2, ha]) (by rw [g3, h1]) hl.1 hl.2
      exact ⟨s2, k1, k2, After.trans g4 g2 g5 g6 k3⟩
    have hlog : ∀ msg, Labels c' (c'.logError msg) := fun msg => ⟨rfl, rfl⟩
    unfold call3
    simp only [ha, h2, Outcome.ret_bind]
    cases op with
    | getFMUState j =>
      simp only [getFMUState3, FMI3.step, FMI3.World.runSlot, FMI3.getFMUState, FMI3.begin, beginFunction]
      split
      · rcases h.getFMUState (lib := lib) c' n r j with ⟨p, k, hp, e⟩ | ⟨hx, k, e⟩
        · simp only [e, callLast, Verif.call, Outcome.ret_bind]
          obtain ⟨⟨role1, g1⟩, g2, g3, g4⟩ := h.stored (c := c') (n := n) (r := r) (k := k) hp
          obtain ⟨s2, k1, k2, k3⟩ := fin (d := c') ⟨rfl, rfl⟩ g1 rfl (g2 i a ha) g3 g4 rfl
          simp only [id] at k1 ⊢
          simp [k1, Outcome.ret_bind]
          exact .ret k2 k3
        · simp only [e, callLast, Verif.call, Outcome.ret_bind]
          obtain ⟨s2, k1, k2, k3⟩ := fin (d := (c'.logError "Failed to allocate memory.").setState .terminated) (slots := s.theState)
            ⟨rfl, rfl⟩ (h.calls k) rfl rfl (fun _ => rfl) (fun _ => rfl) rfl
          simp only [id, Status.rank, Nat.reduceLT, gt_iff_lt, if_true, k1, Outcome.ret_bind]
          exact .save rfl hx k2 k3
      · obtain ⟨s2, k1, k2, k3⟩ := fin (d := (c'.logError ("fmi3GetFMUState" ++ ": Illegal call sequence.")).setState .terminated)
          (slots := s.theState) ⟨rfl, rfl⟩ h rfl rfl (fun _ => rfl) (fun _ => rfl) rfl
        simp only [Outcome.ret_bind, k1]
        refine .ret k2 ⟨k3.inst, k3.insts, fun x => (k3.states x).trans ?_, k3.bufs, k3.vars⟩
        by_cases hx : x = j <;> simp [hx]
    | setFMUState j =>
      simp only [h.read, Outcome.ret_bind, FMI3.step, FMI3.World.run]
      cases e : FMI3.setFMUState m c' (s.theState j) with
      | ub => exact .ub
      | hang => exact .hang
      | ret x =>
        obtain ⟨d, st, u⟩ := x
        have hl : Labels c' d := by
          unfold FMI3.setFMUState FMI3.begin beginFunction callLast Verif.call at e
          split at e
          · cases hs : s.theState j <;> simp only [hs, Outcome.ret_bind, Status.rank] at e <;> simp at e <;> obtain ⟨e, -⟩ := e <;> subst e <;>
              exact ⟨rfl, rfl⟩
          · cases e; exact ⟨rfl, rfl⟩
        obtain ⟨s2, k1, k2, k3⟩ := fin hl h rfl rfl (fun _ => rfl) (fun _ => rfl) rfl
        simp only [Outcome.ret_bind, k1]
        exact .ret k2 k3
    | freeFMUState j =>
      simp only [freeFMUState3, FMI3.step, FMI3.World.runSlot, FMI3.freeFMUState, FMI3.begin, beginFunction]
      split
      · obtain ⟨⟨role1, g1⟩, g2, g3, g4⟩ := h.cleared j
        obtain ⟨s2, k1, k2, k3⟩ := fin (d := c') ⟨rfl, rfl⟩ g1 rfl (g2 i a ha) g3 g4 rfl
        simp only [h.freeFMUState, Outcome.ret_bind, k1]
        exact .ret k2 k3
      · obtain ⟨s2, k1, k2, k3⟩ := fin (d := (c'.logError ("fmi3FreeFMUState" ++ ": Illegal call sequence.")).setState .terminated)
          (slots := s.theState) ⟨rfl, rfl⟩ h rfl rfl (fun _ => rfl) (fun _ => rfl) rfl
        simp only [Outcome.ret_bind, k1]
        refine .ret k2 ⟨k3.inst, k3.insts, fun x => (k3.states x).trans ?_, k3.bufs, k3.vars⟩
        by_cases hx : x = j <;> simp [hx]
    | serializeFMUState j b size =>
      simp only [h.read, Outcome.ret_bind, FMI3.step, FMI3.World.runBuf]
      cases e : FMI3.serializeFMUState m c' (s.theState j) (s.bufs b) size with
      | ub => exact .ub
      | hang => exact .hang
      | ret x =>
        obtain ⟨d, st, v⟩ := x
        have hl : Labels c' d := by
          unfold FMI3.serializeFMUState FMI3.begin beginFunction at e
          split at e
          · cases hs : s.theState j with
            | none => simp only [hs] at e; cases e; exact ⟨rfl, rfl⟩
            | some t =>
              simp only [hs] at e
              split at e
              · cases e; exact ⟨rfl, rfl⟩
              · obtain ⟨y, -, e⟩ := Outcome.bind_eq_ret.1 e
                cases e; exact ⟨rfl, rfl⟩
          · cases e; exact ⟨rfl, rfl⟩
        obtain ⟨s2, k1, k2, k3⟩ := fin (s1 := { s with bufs := upd s.bufs b v }) hl (h.bufs _) rfl rfl (fun _ => rfl) (fun _ => rfl) rfl
        simp only [Outcome.ret_bind, k1]
        exact .ret k2 k3
    | deserializeFMUState b size j =>
      simp only [deserializeFMUState3, FMI3.step, FMI3.World.runSlot, FMI3.deserializeFMUState, FMI3.begin, beginFunction]
      have same : ∀ (d : Comp F D) (st : Status), Labels c' d →
          Same3 lib s i ⟨c', s.theState, s.bufs⟩ (.deserializeFMUState b size j)
            (.ret (⟨d, fun x => if x = j then s.theState j else s.theState x, s.bufs⟩, st, .unit))
            (s.leave lib a c' d n r >>- fun s => .ret (s, st, .unit)) := by
        intro d st hl
        obtain ⟨s2, k1, k2, k3⟩ := fin (d := d) (slots := s.theState) hl h rfl rfl (fun _ => rfl) (fun _ => rfl) rfl
        simp only [Outcome.ret_bind, k1]
        refine .ret k2 ⟨k3.inst, k3.insts, fun x => (k3.states x).trans ?_, k3.bufs, k3.vars⟩
        by_cases hx : x = j <;> simp [hx]
      split
      · split
        · exact same _ _ ⟨rfl, rfl⟩
        · rcases h.load (lib := lib) c' j with ⟨p, k, hp, e1, e2, -⟩ | ⟨hx, k, e1, e2⟩
          · simp only [e1, if_false, e2]
            cases el : Buffer.load m (s.bufs b) with
            | ub => exact .ub
            | hang => exact .hang
            | ret t =>
              simp only [Outcome.ret_bind]
              rcases h.load (lib := lib) t j with ⟨p, k, hp, -, -, e3⟩ | ⟨-, k, e3, e4⟩
              · obtain ⟨⟨role1, g1⟩, g2, g3, g4⟩ := h.stored (c := t) (n := none) (r := none) (k := k) hp
                obtain ⟨s2, k1, k2, k3⟩ := fin (d := c') ⟨rfl, rfl⟩ g1 rfl (g2 i a ha) g3 g4 rfl
                simp only [e3, Outcome.ret_bind, k1]
                exact .ret k2 k3
              · simp [e3, e4] at e1
          · obtain ⟨s2, k1, k2, k3⟩ := fin (d := c') (slots := s.theState) ⟨rfl, rfl⟩ (h.calls k) rfl rfl (fun _ => rfl) (fun _ => rfl) rfl
            simp only [e1, e2, if_true, Outcome.ret_bind, k1]
            exact .load rfl hx k2 k3
      · exact same _ _ ⟨rfl, rfl⟩
    | _ => exact absurd rfl hp

/-- What a call in memory can be, compared with the call on values. -/
inductive Same2 (lib : CLib) (s : State F D) (i : Nat) (w : FMI2.World F D) (op : FMI2.Op F) :
    Outcome (FMI2.World F D × Status × FMI2.Out F) → Outcome (State F D × Status × FMI2.Out F) → Prop
  | ret {w' st o s' role'} : Inv s' role' → After s s' i w'.inst w'.slots w'.bufs → Same2 lib s i w op (.ret (w', st, o)) (.ret (s', st, o))
  | ub : Same2 lib s i w op .ub .ub
  | hang : Same2 lib s i w op .hang .hang
  | save {x j s' role'} : op = .getFMUstate j → ¬lib.Reliable .save → Inv s' role' →
      After s s' i (w.inst.logError "Failed to allocate memory.") w.slots w.bufs → Same2 lib s i w op x (.ret (s', .OK, .unit))

theorem call2_same {lib : CLib} {m : Model F D} (hm : OkOrError m) (hr : lib.Reliable .message) (hd : lib.Reliable .load) (fuel : Nat) {s : State F D} {role}
    (h : Inv s role) {i : Nat} {c : Comp F D} (hc : s.theInstance i = some c) (op : FMI2.Op F) :
    Same2 lib s i ⟨c, s.theState, s.bufs⟩ op (FMI2.step m fuel ⟨c, s.theState, s.bufs⟩ op) (call2 lib m fuel s i op) := by
  obtain ⟨a, ha⟩ : ∃ a, s.inst i = some a := by
    cases e : s.inst i with
    | none => simp [State.theInstance, e] at hc
    | some a => exact ⟨a, rfl⟩
  obtain ⟨c', n, r, h1, h2, h3⟩ := h.access ha
  have : c' = c := by rw [hc] at h3; cases h3; rfl
  subst this
  by_cases hp : onStates2 op = false
  · rw [call2_plain ha hp, plain2 hp, h2, Outcome.ret_bind]
    simp only []
    cases e : FMI2.step m fuel (FMI2.World.fresh c') op with
    | ub => exact .ub
    | hang => exact .hang
    | ret x =>
      obtain ⟨w1, st, o⟩ := x
      have hl := (FMI2.step_inv hm (labels2 m c') (FMI2.WInv.fresh ⟨rfl, rfl⟩) op _ e).inst
      obtain ⟨s2, g1, g2, g3⟩ := h.leave (c := c') hr ha h1 hl.1 hl.2
      simp only [Outcome.ret_bind, g1]
      exact .ret g2 g3
  · have fin : ∀ {d : Comp F D} {s1 : State F D} {role1} {slots bufs}, Labels c' d → Inv s1 role1 → s1.inst = s.inst → s1.heap a = s.heap a →
        (∀ k, s1.theInstance k = s.theInstance k) → (∀ j, s1.theState j = slots j) → s1.bufs = bufs →
        ∃ s2, s1.leave lib a c' d n r = .ret s2 ∧ Inv s2 role1 ∧ After s s2 i d slots bufs := by
      intro d s1 role1 slots bufs hl g1 g2 g3 g4 g5 g6
      obtain ⟨s2, k1, k2, k3⟩ := g1.leave (c := c') (c' := d) hr (i := i) (a := a) (by rw [g2, ha]) (by rw [g3, h1]) hl.1 hl.2
      exact ⟨s2, k1, k2, After.trans g4 g2 g5 g6 k3⟩
    have hlog : ∀ msg, Labels c' (c'.logError msg) := fun msg => ⟨rfl, rfl⟩
    unfold call2
    simp only [ha, h2, Outcome.ret_bind]
    cases op with
    | getFMUstate j =>
      simp only [getFMUstate2, FMI2.step, FMI2.World.runSlot, FMI2.getFMUstate, FMI2.begin, beginFunction]
      split
      · rcases h.getFMUState (lib := lib) c' n r j with ⟨p, k, hp, e⟩ | ⟨hx, k, e⟩
        · simp only [e, Outcome.ret_bind]
          obtain ⟨⟨role1, g1⟩, g2, g3, g4⟩ := h.stored (c := c') (n := n) (r := r) (k := k) hp
          obtain ⟨s2, k1, k2, k3⟩ := fin (d := c') ⟨rfl, rfl⟩ g1 rfl (g2 i a ha) g3 g4 rfl
          simp only [k1, Outcome.ret_bind]
          exact .ret k2 k3
        · simp only [e, Outcome.ret_bind]
          obtain ⟨s2, k1, k2, k3⟩ := fin (d := c'.logError "Failed to allocate memory.") (slots := s.theState)
            ⟨rfl, rfl⟩ (h.calls k) rfl rfl (fun _ => rfl) (fun _ => rfl) rfl
          simp only [k1, Outcome.ret_bind]
          exact .save rfl hx k2 k3
      · obtain ⟨s2, k1, k2, k3⟩ := fin (d := (c'.logError ("fmi2GetFMUstate" ++ ": Illegal call sequence.")).setState .terminated)
          (slots := s.theState) ⟨rfl, rfl⟩ h rfl rfl (fun _ => rfl) (fun _ => rfl) rfl
        simp only [Outcome.ret_bind, k1]
        refine .ret k2 ⟨k3.inst, k3.insts, fun x => (k3.states x).trans ?_, k3.bufs, k3.vars⟩
        by_cases hx : x = j <;> simp [hx]
    | setFMUstate j =>
      simp only [h.read, Outcome.ret_bind, FMI2.step, FMI2.World.run]
      cases e : FMI2.setFMUstate m c' (s.theState j) with
      | ub => exact .ub
      | hang => exact .hang
      | ret x =>
        obtain ⟨d, st, u⟩ := x
        have hl : Labels c' d := by
          unfold FMI2.setFMUstate FMI2.begin beginFunction at e
          split at e
          · cases hs : s.theState j <;> simp only [hs] at e <;> cases e <;> exact ⟨rfl, rfl⟩
          · cases e; exact ⟨rfl, rfl⟩
        obtain ⟨s2, k1, k2, k3⟩ := fin hl h rfl rfl (fun _ => rfl) (fun _ => rfl) rfl
        simp only [Outcome.ret_bind, k1]
        exact .ret k2 k3
    | freeFMUstate j =>
      simp only [freeFMUstate2, FMI2.step, FMI2.World.runSlot, FMI2.freeFMUstate, FMI2.begin, beginFunction]
      split
      · obtain ⟨⟨role1, g1⟩, g2, g3, g4⟩ := h.cleared j
        obtain ⟨s2, k1, k2, k3⟩ := fin (d := c') ⟨rfl, rfl⟩ g1 rfl (g2 i a ha) g3 g4 rfl
        simp only [h.freeFMUState, Outcome.ret_bind, k1]
        exact .ret k2 k3
      · obtain ⟨s2, k1, k2, k3⟩ := fin (d := (c'.logError ("fmi2FreeFMUstate" ++ ": Illegal call sequence.")).setState .terminated)
          (slots := s.theState) ⟨rfl, rfl⟩ h rfl rfl (fun _ => rfl) (fun _ => rfl) rfl
        simp only [Outcome.ret_bind, k1]
        refine .ret k2 ⟨k3.inst, k3.insts, fun x => (k3.states x).trans ?_, k3.bufs, k3.vars⟩
        by_cases hx : x = j <;> simp [hx]
    | serializeFMUstate j b size =>
      simp only [h.read, Outcome.ret_bind, FMI2.step, FMI2.World.runBuf]
      cases e : FMI2.serializeFMUstate m c' (s.theState j) (s.bufs b) size with
      | ub => exact .ub
      | hang => exact .hang
      | ret x =>
        obtain ⟨d, st, v⟩ := x
        have hl : Labels c' d := by
          unfold FMI2.serializeFMUstate FMI2.begin beginFunction at e
          split at e
          · cases hs : s.theState j with
            | none => simp only [hs] at e; cases e; exact ⟨rfl, rfl⟩
            | some t =>
              simp only [hs] at e
              split at e
              · cases e; exact ⟨rfl, rfl⟩
              · obtain ⟨y, -, e⟩ := Outcome.bind_eq_ret.1 e
                cases e; exact ⟨rfl, rfl⟩
          · cases e; exact ⟨rfl, rfl⟩
        obtain ⟨s2, k1, k2, k3⟩ := fin (s1 := { s with bufs := upd s.bufs b v }) hl (h.bufs _) rfl rfl (fun _ => rfl) (fun _ => rfl) rfl
        simp only [Outcome.ret_bind, k1]
        exact .ret k2 k3
    | deSerializeFMUstate b size j =>
      simp only [deSerializeFMUstate2, FMI2.step, FMI2.World.runSlot, FMI2.deSerializeFMUstate, FMI2.begin, beginFunction]
      have same : ∀ (d : Comp F D) (st : Status), Labels c' d →
          Same2 lib s i ⟨c', s.theState, s.bufs⟩ (.deSerializeFMUstate b size j)
            (.ret (⟨d, fun x => if x = j then s.theState j else s.theState x, s.bufs⟩, st, .unit))
            (s.leave lib a c' d n r >>- fun s => .ret (s, st, .unit)) := by
        intro d st hl
        obtain ⟨s2, k1, k2, k3⟩ := fin (d := d) (slots := s.theState) hl h rfl rfl (fun _ => rfl) (fun _ => rfl) rfl
        simp only [Outcome.ret_bind, k1]
        refine .ret k2 ⟨k3.inst, k3.insts, fun x => (k3.states x).trans ?_, k3.bufs, k3.vars⟩
        by_cases hx : x = j <;> simp [hx]
      split
      · split
        · exact same _ _ ⟨rfl, rfl⟩
        · cases el : Buffer.load m (s.bufs b) with
          | ub => exact .ub
          | hang => exact .hang
          | ret t =>
            simp only [Outcome.ret_bind]
            rcases h.load (lib := lib) t j with ⟨p, k, hp, -, -, e3⟩ | ⟨hx, -⟩
            · obtain ⟨⟨role1, g1⟩, g2, g3, g4⟩ := h.stored (c := t) (n := none) (r := none) (k := k) hp
              obtain ⟨s2, k1, k2, k3⟩ := fin (d := c') ⟨rfl, rfl⟩ g1 rfl (g2 i a ha) g3 g4 rfl
              simp only [e3, Outcome.ret_bind, k1]
              exact .ret k2 k3
            · exact absurd hd hx
      · exact same _ _ ⟨rfl, rfl⟩
    | _ => exact absurd rfl hp

/-! ### Commands -/

theorem created {m : Model F D} {ver3 logger iu loggingOn : Bool} {name token : Option String} {typ : IType} :
    (∀ r c l, createModelInstance m ver3 logger iu name token r loggingOn true typ = (some c, l) →
      c.ctx.resourceLocation = r ∧ some c.instanceName = name) ∧
    ∀ r r', (createModelInstance m ver3 logger iu name token r loggingOn true typ).1.isSome =
      (createModelInstance m ver3 logger iu name token r' loggingOn true typ).1.isSome := by
  constructor
  · intro r c l h
    unfold createModelInstance at h
    repeat' split at h
    all_goals simp only [Prod.mk.injEq, reduceCtorEq, false_and, Option.some.injEq] at h
    all_goals
      obtain ⟨h, -⟩ := h
      subst h
      exact ⟨rfl, rfl⟩
  · intro r r'
    unfold createModelInstance
    repeat' split
    all_goals rfl

theorem isSome_any {α : Type} {x y : Option α} (h : x.isSome = y.isSome) {c} (e : x = some c) : ∃ c', y = some c' := by
  subst e
  cases y with
  | none => simp at h
  | some c' => exact ⟨c', rfl⟩

theorem makes2 {m : Model F D} {name guid : Option String} {typ : IType} {functions : Option Bool} {loggingOn : Bool} :
    Makes fun r mem => FMI2.instantiate m name typ guid r functions loggingOn mem := by
  obtain ⟨h1, h2⟩ := created (m := m) (ver3 := false) (logger := true) (iu := false) (loggingOn := loggingOn) (name := name)
    (token := guid) (typ := typ)
  cases functions with
  | none => exact ⟨fun e => by simp [FMI2.instantiate] at e, fun e => by simp [FMI2.instantiate] at e, fun _ e => by simp [FMI2.instantiate] at e⟩
  | some b =>
    cases b with
    | false =>
      exact ⟨fun e => by simp [FMI2.instantiate] at e, fun e => by simp [FMI2.instantiate] at e, fun _ e => by simp [FMI2.instantiate] at e⟩
    | true =>
      refine ⟨fun {r c} e => (h1 r c _ (Prod.ext e rfl)).1, fun {r r' c c'} e e' => ?_, fun r' e => isSome_any (h2 _ r') e⟩
      have a := (h1 r c _ (Prod.ext e rfl)).2
      have b := (h1 r' c' _ (Prod.ext e' rfl)).2
      exact Option.some.inj (b.trans a.symm)

theorem makesME {m : Model F D} {name token : Option String} {loggingOn logger : Bool} :
    Makes fun r mem => FMI3.instantiateModelExchange m name token r loggingOn logger mem := by
  obtain ⟨h1, h2⟩ := created (m := m) (ver3 := true) (logger := logger) (iu := false) (loggingOn := loggingOn) (name := name)
    (token := token) (typ := .modelExchange)
  unfold FMI3.instantiateModelExchange
  split
  · exact ⟨fun e => by simp at e, fun e => by simp at e, fun _ e => by simp at e⟩
  · refine ⟨fun {r c} e => (h1 r c _ (Prod.ext e rfl)).1, fun {r r' c c'} e e' => ?_, fun r' e => isSome_any (h2 _ r') e⟩
    have a := (h1 r c _ (Prod.ext e rfl)).2
    have b := (h1 r' c' _ (Prod.ext e' rfl)).2
    exact Option.some.inj (b.trans a.symm)

theorem makes_map {make : Ptr UInt8 → Bool → Option (Comp F D) × List (Ev F)} (g : Comp F D → Comp F D) (hg : ∀ c, Labels c (g c))
    (h1 : ∀ r c l, make r true = (some c, l) → c.ctx.resourceLocation = r ∧ some c.instanceName = name)
    (h2 : ∀ r r', (make r true).1.isSome = (make r' true).1.isSome) :
    Makes fun r mem => ((make r mem).1.map g, (make r mem).2) := by
  have key : ∀ {r c}, (make r true).1.map g = some c → c.ctx.resourceLocation = r ∧ some c.instanceName = name := by
    intro r c e
    cases e' : (make r true).1 with
    | none => simp [e'] at e
    | some d =>
      simp only [e', Option.map_some, Option.some.injEq] at e
      subst e
      have := h1 r d _ (Prod.ext e' rfl)
      exact ⟨(hg d).2.trans this.1, (congrArg some (hg d).1).trans this.2⟩
  refine ⟨fun e => (key e).1, fun e e' => Option.some.inj ((key e').2.trans (key e).2.symm), fun {r c} r' e => isSome_any (x := (make r true).1.map g) ?_ e⟩
  simpa using h2 r r'

theorem makesCS {m : Model F D} {name token : Option String} {loggingOn ev er logger iu : Bool} :
    Makes fun r mem => FMI3.instantiateCoSimulation m name token r loggingOn ev er logger iu mem := by
  obtain ⟨h1, h2⟩ := created (m := m) (ver3 := true) (logger := logger) (iu := iu) (loggingOn := loggingOn) (name := name)
    (token := token) (typ := .coSimulation)
  unfold FMI3.instantiateCoSimulation
  split
  · exact ⟨fun e => by simp at e, fun e => by simp at e, fun _ e => by simp at e⟩
  · exact makes_map (make := fun r mem => createModelInstance m true logger iu name token r loggingOn mem .coSimulation) _
      (fun c => ⟨rfl, rfl⟩) h1 h2

theorem makesSE {m : Model F D} {name token : Option String} {loggingOn logger clk lock unlock : Bool} :
    Makes fun r mem => FMI3.instantiateScheduledExecution m name token r loggingOn logger clk lock unlock mem := by
  obtain ⟨h1, h2⟩ := created (m := m) (ver3 := true) (logger := logger) (iu := false) (loggingOn := loggingOn) (name := name)
    (token := token) (typ := .scheduledExecution)
  unfold FMI3.instantiateScheduledExecution
  split
  · exact ⟨fun e => by simp at e, fun e => by simp at e, fun _ e => by simp at e⟩
  · exact makes_map (make := fun r mem => createModelInstance m true logger false name token r loggingOn mem .scheduledExecution) _
      (fun c => ⟨rfl, rfl⟩) h1 h2

theorem Inv.theInstance_none {s : State F D} {role} (h : Inv s role) {i : Nat} (e : s.theInstance i = none) : s.inst i = none := by
  cases e' : s.inst i with
  | none => rfl
  | some a =>
    obtain ⟨-, c, n, r, h2, -⟩ := h.inst i a e'
    simp [State.theInstance, e', h2] at e

/-- One command of FMI 2.0. -/
theorem step2_does {lib : CLib} {m : Model F D} (hm : OkOrError m) (hn : lib.Reliable .name) (hr : lib.Reliable .message)
    (hd : lib.Reliable .load) (fuel : Nat) {s : State F D} {role} (h : Inv s role) {cmd : Cmd2 F} (hp : Proper2 s cmd) :
    Does2 lib m fuel s (step2 lib m fuel s cmd) cmd ∧ ∀ s' r, step2 lib m fuel s cmd = .ret (s', r) → ∃ role', Inv s' role' := by
  cases cmd with
  | instantiate i name typ guid resource functions loggingOn =>
    obtain ⟨s', role', e, k1, k2, k3⟩ := h.create (lib := lib) (resource := resource) (i := i) hp hn
      (makes2 (m := m) (name := name) (guid := guid) (typ := typ) (functions := functions) (loggingOn := loggingOn))
    simp only [step2, e, Outcome.ret_bind, Does2]
    exact ⟨⟨s', rfl, k2, k3⟩, fun _ _ e => by cases e; exact ⟨_, k1⟩⟩
  | free i =>
    obtain ⟨s', role', e, k1, k2, -, k3, -⟩ := h.destroy i
    simp only [step2, e, Outcome.ret_bind, Does2]
    exact ⟨⟨s', rfl, k2, by simp [k3, upd]⟩, fun _ _ e => by cases e; exact ⟨_, k1⟩⟩
  | call i op =>
    simp only [step2, Does2]
    cases e : s.theInstance i with
    | none =>
      simp only [call2, h.theInstance_none e, Outcome.ret_bind]
      exact ⟨trivial, fun _ _ e => by cases e; exact ⟨_, h⟩⟩
    | some c =>
      have := call2_same hm hr hd fuel h e op
      simp only []
      generalize FMI2.step m fuel ⟨c, s.theState, s.bufs⟩ op = x at this ⊢
      generalize call2 lib m fuel s i op = y at this ⊢
      cases this with
      | ret k1 k2 => exact ⟨.ret k2, fun _ _ e => by cases e; exact ⟨_, k1⟩⟩
      | ub => exact ⟨.ub, fun _ _ e => by simp at e⟩
      | hang => exact ⟨.hang, fun _ _ e => by cases e⟩
      | save k0 k1 k2 k3 => exact ⟨.save k0 k1 k3, fun _ _ e => by cases e; exact ⟨_, k2⟩⟩

/-- One command of FMI 3.0. -/
theorem step3_does {lib : CLib} {m : Model F D} (hm : OkOrError m) (hn : lib.Reliable .name) (hr : lib.Reliable .message)
    (fuel : Nat) {s : State F D} {role} (h : Inv s role) {cmd : Cmd3 F} (hp : Proper3 s cmd) :
    Does3 lib m fuel s (step3 lib m fuel s cmd) cmd ∧ ∀ s' r, step3 lib m fuel s cmd = .ret (s', r) → ∃ role', Inv s' role' := by
  cases cmd with
  | instantiateModelExchange i name token resource loggingOn logger =>
    obtain ⟨s', role', e, k1, k2, k3⟩ := h.create (lib := lib) (resource := resource) (i := i) hp hn
      (makesME (m := m) (name := name) (token := token) (loggingOn := loggingOn) (logger := logger))
    simp only [step3, e, Outcome.ret_bind, Does3]
    exact ⟨⟨s', rfl, k2, k3⟩, fun _ _ e => by cases e; exact ⟨_, k1⟩⟩
  | instantiateCoSimulation i name token resource loggingOn ev er logger iu =>
    obtain ⟨s', role', e, k1, k2, k3⟩ := h.create (lib := lib) (resource := resource) (i := i) hp hn
      (makesCS (m := m) (name := name) (token := token) (loggingOn := loggingOn) (ev := ev) (er := er) (logger := logger) (iu := iu))
    simp only [step3, e, Outcome.ret_bind, Does3]
    exact ⟨⟨s', rfl, k2, k3⟩, fun _ _ e => by cases e; exact ⟨_, k1⟩⟩
  | instantiateScheduledExecution i name token resource loggingOn logger clk lock unlock =>
    obtain ⟨s', role', e, k1, k2, k3⟩ := h.create (lib := lib) (resource := resource) (i := i) hp hn
      (makesSE (m := m) (name := name) (token := token) (loggingOn := loggingOn) (logger := logger) (clk := clk) (lock := lock)
        (unlock := unlock))
    simp only [step3, e, Outcome.ret_bind, Does3]
    exact ⟨⟨s', rfl, k2, k3⟩, fun _ _ e => by cases e; exact ⟨_, k1⟩⟩
  | free i =>
    obtain ⟨s', role', e, k1, k2, -, k3, -⟩ := h.destroy i
    simp only [step3, e, Outcome.ret_bind, Does3]
    exact ⟨⟨s', rfl, k2, by simp [k3, upd]⟩, fun _ _ e => by cases e; exact ⟨_, k1⟩⟩
  | call i op =>
    simp only [step3, Does3]
    cases e : s.theInstance i with
    | none =>
      simp only [call3, h.theInstance_none e, Outcome.ret_bind]
      exact ⟨trivial, fun _ _ e => by cases e; exact ⟨_, h⟩⟩
    | some c =>
      have := call3_same hm hr fuel h e op
      simp only []
      generalize FMI3.step m fuel ⟨c, s.theState, s.bufs⟩ op = x at this ⊢
      generalize call3 lib m fuel s i op = y at this ⊢
      cases this with
      | ret k1 k2 => exact ⟨.ret k2, fun _ _ e => by cases e; exact ⟨_, k1⟩⟩
      | ub => exact ⟨.ub, fun _ _ e => by simp at e⟩
      | hang => exact ⟨.hang, fun _ _ e => by cases e⟩
      | save k0 k1 k2 k3 => exact ⟨.save k0 k1 k3, fun _ _ e => by cases e; exact ⟨_, k2⟩⟩
      | load k0 k1 k2 k3 => exact ⟨.load k0 k1 k3, fun _ _ e => by cases e; exact ⟨_, k2⟩⟩

theorem exec2_inv {lib : CLib} {m : Model F D} (hm : OkOrError m) (hn : lib.Reliable .name) (hr : lib.Reliable .message)
    (hd : lib.Reliable .load) {fuel : Nat} {s s' : State F D} {cmds} (he : Exec2 lib m fuel s cmds s') :
    (∃ role, Inv s role) → ∃ role, Inv s' role := by
  induction he with
  | nil => exact id
  | cons hp e _ ih => exact fun ⟨role, h⟩ => ih ((step2_does hm hn hr hd fuel h hp).2 _ _ e)

theorem exec3_inv {lib : CLib} {m : Model F D} (hm : OkOrError m) (hn : lib.Reliable .name) (hr : lib.Reliable .message)
    {fuel : Nat} {s s' : State F D} {cmds} (he : Exec3 lib m fuel s cmds s') : (∃ role, Inv s role) → ∃ role, Inv s' role := by
  induction he with
  | nil => exact id
  | cons hp e _ ih => exact fun ⟨role, h⟩ => ih ((step3_does hm hn hr fuel h hp).2 _ _ e)

/-- The pointers of the importer are valid. -/
theorem Inv.valid {s : State F D} {role} (h : Inv s role) : s.Valid where
  inst i e e' := e (h.theInstance_none e')
  state j e e' := by
    cases e1 : s.slot j with
    | none => exact e e1
    | some p =>
      obtain ⟨-, c, n, r, h2⟩ := h.slot j p e1
      simp [State.theState, e1, h2] at e'
  insts i k a e e' := by
    have := (h.inst i a e).1.symm.trans (h.inst k a e').1
    simpa using this
  states i k a e e' := by
    have := (h.slot i a e).1.symm.trans (h.slot k a e').1
    simpa using this
  apart i j a e e' := by
    have := (h.inst i a e).1.symm.trans (h.slot j a e').1
    simp at this

theorem Inv.noLeak {s : State F D} {role} (h : Inv s role) : s.NoLeak := by
  intro a ha
  cases e : role a with
  | none => exact absurd ((h.live a).2 e) ha
  | some x =>
    cases x with
    | inst i => exact .inl ⟨i, h.ofInst a i e⟩
    | slot j => exact .inr (.inl ⟨j, h.ofSlot a j e⟩)
    | name i => obtain ⟨b, c, r, h1, h2⟩ := h.ofName a i e; exact .inr (.inr ⟨i, b, c, _, r, h1, h2, .inl rfl⟩)
    | path i => obtain ⟨b, c, n, h1, h2⟩ := h.ofPath a i e; exact .inr (.inr ⟨i, b, c, n, _, h1, h2, .inr rfl⟩)

end Mem
end Verif
