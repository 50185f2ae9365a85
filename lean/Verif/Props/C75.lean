import Verif.Lemmas.MemCalls
import Verif.Examples

/-!
# C75: the memory of the FMU

The importer may use any number of instances of an FMU and any number of FMU states, in any order, and pass FMU states from one instance to
another. The FMU must not leak memory, use or free memory that was freed, or let one instance change another.
-/

namespace Verif
open Verif.Mem

namespace FMI3
variable {F D : Type} [Arith F] [HasInf F]

/-- C75 for FMI 3.0, every FMU, every program with any number of instances and FMU states, and every C library: nothing is leaked,
all pointers stay valid, and every further command (calls on NULL handles too) does in memory what it does on values. In
particular no command is undefined unless the call is undefined on values, a call changes no other instance, and when everything is
freed no memory is left. Missing: memory that is exhausted for the instance name or for a log message (`C75_violated_leak`,
`C75_violated_message`). -/
theorem C75_partial {m : Model F D} (hm : RefFMU3 m) {lib : CLib} (hn : lib.Reliable .name) (hr : lib.Reliable .message) {fuel : Nat}
    {bufs : Nat → Option (Buffer F D)} {cmds : List (Cmd3 F)} {s : State F D}
    (he : Exec3 lib m fuel (.initial bufs) cmds s) :
    s.NoLeak ∧ s.Valid ∧ (s.Released → s.Empty) ∧
      ∀ cmd, Proper3 s cmd → Does3 lib m fuel s (step3 lib m fuel s cmd) cmd := by
  obtain ⟨role, h⟩ := exec3_inv hm.eff.okOrError hn hr he ⟨_, .initial bufs⟩
  exact ⟨h.noLeak, h.valid, h.empty, fun cmd hp => (step3_does hm.eff.okOrError hn hr fuel h hp).1⟩

end FMI3

namespace FMI2
variable {F D : Type} [Arith F] [HasInf F]

/-- C75 for FMI 2.0. Missing: memory that is exhausted for the instance name, for a log message, or for an FMU state that is
deserialized (`C75_violated_leak`, `C75_violated_message`, `C75_violated_load`). -/
theorem C75_partial {m : Model F D} (hm : RefFMU2 m) {lib : CLib} (hn : lib.Reliable .name) (hr : lib.Reliable .message)
    (hd : lib.Reliable .load) {fuel : Nat} {bufs : Nat → Option (Buffer F D)} {cmds : List (Cmd2 F)} {s : State F D}
    (he : Exec2 lib m fuel (.initial bufs) cmds s) :
    s.NoLeak ∧ s.Valid ∧ (s.Released → s.Empty) ∧
      ∀ cmd, Proper2 s cmd → Does2 lib m fuel s (step2 lib m fuel s cmd) cmd := by
  obtain ⟨role, h⟩ := exec2_inv hm.eff.okOrError hn hr hd he ⟨_, .initial bufs⟩
  exact ⟨h.noLeak, h.valid, h.empty, fun cmd hp => (step2_does hm.eff.okOrError hn hr hd fuel h hp).1⟩

end FMI2

/-! ### Examples and counterexamples -/

namespace Mem

/-- A C library: the `k`-th allocation returns address `k` if it is not in use, and fails when `fails` says so. -/
noncomputable def exLib (fails : Use → Nat → Bool) : CLib where
  alloc u k live _ :=
    if fails u k then none else if live k = false then some k else
      open Classical in if h : ∃ a, live a = false then some h.choose else none
  fresh u k live old a h := by
    split at h
    · cases h
    split at h
    · cases h; next hk => exact .inl hk
    split at h
    · next hx => cases h; exact .inl hx.choose_spec
    · cases h

theorem exLib_reliable {fails : Use → Nat → Bool} {u : Use} (h : ∀ k, fails u k = false) : (exLib fails).Reliable u := by
  intro k live old ⟨n, hn⟩
  simp only [exLib, h]
  split
  · contradiction
  split
  · simp
  · rw [dif_pos ⟨n, hn n (Nat.le_refl _)⟩]; simp

/-- The rule, computed. -/
def proper3 {F D : Type} (s : State F D) : Cmd3 F → Bool
  | .instantiateModelExchange i .. => (s.inst i).isNone
  | .instantiateCoSimulation i .. => (s.inst i).isNone
  | .instantiateScheduledExecution i .. => (s.inst i).isNone
  | _ => true

/-- The rule, computed. -/
def proper2 {F D : Type} (s : State F D) : Cmd2 F → Bool
  | .instantiate i .. => (s.inst i).isNone
  | _ => true

/-- Run a program and collect the statuses. -/
def runAll3 {F D : Type} [Arith F] [HasInf F] (lib : CLib) (m : Model F D) (fuel : Nat) (s : State F D) :
    List (Cmd3 F) → Outcome (State F D × List Status)
  | [] => .ret (s, [])
  | cmd :: cmds => if proper3 s cmd then
      step3 lib m fuel s cmd >>- fun (s, r) => runAll3 lib m fuel s cmds >>- fun (s, l) => .ret (s, r.toList.map (·.1) ++ l)
    else .ub

/-- Run a program and collect the statuses. -/
def runAll2 {F D : Type} [Arith F] [HasInf F] (lib : CLib) (m : Model F D) (fuel : Nat) (s : State F D) :
    List (Cmd2 F) → Outcome (State F D × List Status)
  | [] => .ret (s, [])
  | cmd :: cmds => if proper2 s cmd then
      step2 lib m fuel s cmd >>- fun (s, r) => runAll2 lib m fuel s cmds >>- fun (s, l) => .ret (s, r.toList.map (·.1) ++ l)
    else .ub

theorem runAll3_exec {F D : Type} [Arith F] [HasInf F] {lib : CLib} {m : Model F D} {fuel : Nat} :
    ∀ {cmds : List (Cmd3 F)} {s s' : State F D} {l}, runAll3 lib m fuel s cmds = .ret (s', l) → Exec3 lib m fuel s cmds s'
  | [], s, s', l, e => by cases e; exact .nil _
  | cmd :: cmds, s, s', l, e => by
    unfold runAll3 at e
    split at e
    · next hp =>
      obtain ⟨⟨s1, r⟩, e1, e⟩ := Outcome.bind_eq_ret.1 e
      obtain ⟨⟨s2, l'⟩, e2, e⟩ := Outcome.bind_eq_ret.1 e
      cases e
      refine .cons ?_ e1 (runAll3_exec e2)
      cases cmd <;> simp_all [proper3, Proper3]
    · cases e

theorem runAll2_exec {F D : Type} [Arith F] [HasInf F] {lib : CLib} {m : Model F D} {fuel : Nat} :
    ∀ {cmds : List (Cmd2 F)} {s s' : State F D} {l}, runAll2 lib m fuel s cmds = .ret (s', l) → Exec2 lib m fuel s cmds s'
  | [], s, s', l, e => by cases e; exact .nil _
  | cmd :: cmds, s, s', l, e => by
    unfold runAll2 at e
    split at e
    · next hp =>
      obtain ⟨⟨s1, r⟩, e1, e⟩ := Outcome.bind_eq_ret.1 e
      obtain ⟨⟨s2, l'⟩, e2, e⟩ := Outcome.bind_eq_ret.1 e
      cases e
      refine .cons ?_ e1 (runAll2_exec e2)
      cases cmd <;> simp_all [proper2, Proper2]
    · cases e

/-- Two instances with resource locations; the state of one is saved twice in the same variable, set in the other, copied by
serialization, and an instance is freed. -/
def prog3 : List (Cmd3 XRat) :=
  let new (i : Nat) : Cmd3 XRat :=
    .instantiateCoSimulation i (some "i") (some (Dahlquist.model : Model XRat _).token) (some [47]) true false false true false
  [new 0, new 1, .call 0 (.enterInitializationMode (.fin 0) false (.fin 0)), .call 0 .exitInitializationMode, .call 0 (.getFMUState 0),
    .call 0 (.doStep (.fin 0) (.fin 1) Ex.stepOut), .call 0 (.getFMUState 0), .call 1 (.setFMUState 0), .call 1 (.serializeFMUState 0 0 (Dahlquist.model : Model XRat _).sizeOf),
    .call 1 (.deserializeFMUState 0 (Dahlquist.model : Model XRat _).sizeOf 1), .call 0 (.freeFMUState 0), .call 0 .terminate, .free 0]

/-- The same with FMI 2.0. -/
def prog2 : List (Cmd2 XRat) :=
  let new (i : Nat) : Cmd2 XRat :=
    .instantiate i (some "i") .coSimulation (some (Dahlquist.model : Model XRat _).token) (some [47]) (some true) true
  [new 0, new 1] ++ Ex.init2.map (.call 0) ++ [.call 0 (.getFMUstate 0),
    .call 0 (.doStep (.fin 0) (.fin 1)), .call 0 (.getFMUstate 0), .call 1 (.setFMUstate 0), .call 1 (.serializeFMUstate 0 0 (Dahlquist.model : Model XRat _).sizeOf),
    .call 1 (.deSerializeFMUstate 0 (Dahlquist.model : Model XRat _).sizeOf 1), .call 0 (.freeFMUstate 0), .call 0 .terminate, .free 0]

/-- One byte buffer with room for an FMU state. -/
def exBufs {D : Type} (m : Model XRat D) : Nat → Option (Buffer XRat D) := fun i => if i = 0 then some ⟨m.sizeOf, none⟩ else none

example : ∃ s l, (∀ u, (exLib fun _ _ => false).Reliable u) ∧
    Exec3 (exLib fun _ _ => false) (Dahlquist.model : Model XRat _) 1000 (.initial (exBufs Dahlquist.model)) prog3 s ∧
    runAll3 (exLib fun _ _ => false) (Dahlquist.model : Model XRat _) 1000 (.initial (exBufs Dahlquist.model)) prog3 = .ret (s, l) ∧
    l.all (· == .OK) = true ∧ s.inst 0 = none ∧ (s.theInstance 1).map (·.ctx.time) = some (.fin 1) ∧
    s.slot 0 = none ∧ (s.theState 1).map (·.ctx.time) = some (.fin 1) := by
  obtain ⟨⟨s, l⟩, e, h⟩ := Outcome.exists_of_is
    (r := runAll3 (exLib fun _ _ => false) (Dahlquist.model : Model XRat _) 1000 (.initial (exBufs Dahlquist.model)) prog3)
    (p := fun x => x.2.all (· == .OK) && decide (x.1.inst 0 = none) && decide ((x.1.theInstance 1).map (·.ctx.time) = some (.fin 1)) &&
      decide (x.1.slot 0 = none) && decide ((x.1.theState 1).map (·.ctx.time) = some (.fin 1))) (by decide +kernel)
  simp only [Bool.and_eq_true, decide_eq_true_eq] at h
  obtain ⟨⟨⟨⟨h1, h2⟩, h3⟩, h4⟩, h5⟩ := h
  exact ⟨s, l, fun u => exLib_reliable fun _ => rfl, runAll3_exec e, e, h1, h2, h3, h4, h5⟩

example : ∃ s l, (∀ u, (exLib fun _ _ => false).Reliable u) ∧
    Exec2 (exLib fun _ _ => false) (Dahlquist.model : Model XRat _) 1000 (.initial (exBufs Dahlquist.model)) prog2 s ∧
    runAll2 (exLib fun _ _ => false) (Dahlquist.model : Model XRat _) 1000 (.initial (exBufs Dahlquist.model)) prog2 = .ret (s, l) ∧
    l.all (· == .OK) = true ∧ s.inst 0 = none ∧ (s.theInstance 1).map (·.ctx.time) = some (.fin 1) ∧
    s.slot 0 = none ∧ (s.theState 1).map (·.ctx.time) = some (.fin 1) := by
  obtain ⟨⟨s, l⟩, e, h⟩ := Outcome.exists_of_is
    (r := runAll2 (exLib fun _ _ => false) (Dahlquist.model : Model XRat _) 1000 (.initial (exBufs Dahlquist.model)) prog2)
    (p := fun x => x.2.all (· == .OK) && decide (x.1.inst 0 = none) && decide ((x.1.theInstance 1).map (·.ctx.time) = some (.fin 1)) &&
      decide (x.1.slot 0 = none) && decide ((x.1.theState 1).map (·.ctx.time) = some (.fin 1))) (by decide +kernel)
  simp only [Bool.and_eq_true, decide_eq_true_eq] at h
  obtain ⟨⟨⟨⟨h1, h2⟩, h3⟩, h4⟩, h5⟩ := h
  exact ⟨s, l, fun u => exLib_reliable fun _ => rfl, runAll2_exec e, e, h1, h2, h3, h4, h5⟩

theorem message_vars {F D : Type} {lib : CLib} {s s' : State F D} (e : message lib s = .ret s') : s'.inst = s.inst ∧ s'.slot = s.slot := by
  unfold message malloc at e
  split at e
  · cases e
  · next h =>
    split at h
    · cases h
    · cases h
      simp only [free] at e
      split at e
      · cases e; exact ⟨rfl, rfl⟩
      · cases e

theorem create_vars {F D : Type} {lib : CLib} {s s' : State F D} {i resource make} (e : Mem.create lib s i resource make = .ret s') :
    (∃ o, s'.inst = upd s.inst i o) ∧ s'.slot = s.slot := by
  have mal : ∀ (u : Use) (s : State F D) b, (malloc lib u s b).2.inst = s.inst ∧ (malloc lib u s b).2.slot = s.slot := by
    intro u s b; unfold malloc; split <;> exact ⟨rfl, rfl⟩
  unfold Mem.create at e
  split at e
  · cases e; exact ⟨⟨_, rfl⟩, rfl⟩
  · next c _ =>
    obtain ⟨o, s1, e1⟩ : ∃ o s1, malloc lib .instance s (.record c none none) = (o, s1) := ⟨_, _, rfl⟩
    have h1 := mal .instance s (.record c none none)
    rw [e1] at e h1
    cases o with
    | none => cases e; exact ⟨⟨none, by rw [← h1.1]⟩, h1.2⟩
    | some a =>
      obtain ⟨n, s2, e2⟩ : ∃ o s2, malloc lib .name s1 (.name c.instanceName) = (o, s2) := ⟨_, _, rfl⟩
      have h2 := mal .name s1 (.name c.instanceName)
      simp only [] at e h1
      rw [e2] at e h2
      simp only [] at e h2
      have fin : ∀ (r : Option Nat) (s3 : State F D) (d : Comp F D), s3.inst = s2.inst → s3.slot = s2.slot →
          (if n.isNone = true then (if d.ctx.logger = true then message lib { s3 with heap := upd s3.heap a (some (.record d n r)) }
            else .ret { s3 with heap := upd s3.heap a (some (.record d n r)) }) >>- fun s => .ret { s with inst := upd s.inst i none }
          else .ret { s3 with heap := upd s3.heap a (some (.record d n r)), inst := upd s3.inst i (some a) }) = .ret s' →
          (∃ o, s'.inst = upd s.inst i o) ∧ s'.slot = s.slot := by
        intro r s3 d h3 h4 e
        split at e
        · obtain ⟨s4, e4, e⟩ := Outcome.bind_eq_ret.1 e
          cases e
          have : s4.inst = s3.inst ∧ s4.slot = s3.slot := by
            split at e4
            · have := message_vars e4; exact this
            · cases e4; exact ⟨rfl, rfl⟩
          exact ⟨⟨none, by simp only [this.1, h3, h2.1, h1.1]⟩, by simp only [this.2, h4, h2.2, h1.2]⟩
        · cases e
          exact ⟨⟨some a, by simp only [h3, h2.1, h1.1]⟩, by simp only [h4, h2.2, h1.2]⟩
      cases resource with
      | none => exact fin none s2 _ rfl rfl e
      | some l =>
        have h3 := mal .resource s2 (.path l)
        exact fin _ _ _ h3.1 h3.2 e

/-- The C library has no memory for this purpose. -/
noncomputable def without (u : Use) : CLib := exLib fun v _ => v == u

theorem without_reliable {u v : Use} (h : v ≠ u) : (without u).Reliable v := exLib_reliable fun _ => by simpa using h

/-- A new Co-Simulation instance of Dahlquist with resource location "/". -/
def new3 (i : Nat) : Cmd3 XRat :=
  .instantiateCoSimulation i (some "i") (some (Dahlquist.model : Model XRat _).token) (some [47]) true false false true false

/-- The same with FMI 2.0. -/
def new2 (i : Nat) : Cmd2 XRat :=
  .instantiate i (some "i") .coSimulation (some (Dahlquist.model : Model XRat _).token) (some [47]) (some true) true

end Mem

namespace FMI3

/-- C75 is violated: if there is no memory for the copy of the name, `fmi3InstantiateCoSimulation` returns NULL, and the memory for the instance
stays allocated though the importer has no pointer to it. -/
theorem C75_violated_leak : ∃ (lib : CLib) (s : State XRat (Dahlquist.Data XRat)), (∀ u, u ≠ .name → lib.Reliable u) ∧
    Exec3 lib Dahlquist.model 1000 (.initial fun _ => none) [new3 0] s ∧ s.Released ∧ ¬s.Empty := by
  refine ⟨without .name, ?_⟩
  obtain ⟨⟨s, l⟩, e, h⟩ := Outcome.exists_of_is (r := step3 (without .name) (Dahlquist.model : Model XRat _) 1000 (.initial fun _ => none) (new3 0))
    (p := fun x => decide (x.1.inst 0 = none) && (x.1.heap 0).isSome) (by decide +kernel)
  simp only [Bool.and_eq_true, decide_eq_true_eq] at h
  have e' := e
  simp only [step3, new3] at e'
  obtain ⟨s1, e1, e'⟩ := Outcome.bind_eq_ret.1 e'
  cases e'
  obtain ⟨⟨o, k1⟩, k2⟩ := create_vars e1
  refine ⟨s, fun u hu => without_reliable hu, .cons rfl e (.nil _), ⟨fun i => ?_, fun j => by rw [k2]; rfl⟩, fun hx => by simp [hx 0] at h⟩
  have := h.1
  rw [k1] at this ⊢
  simp only [upd, State.initial] at this ⊢
  split
  · simpa using this
  · rfl

/-- C75 is violated: if there is no memory for a log message, the call that logs it is undefined (the message is printed to a NULL
pointer); on values it returns `fmi3Error`. -/
theorem C75_violated_message : ∃ (lib : CLib) (s : State XRat (Dahlquist.Data XRat)) (c : Comp XRat (Dahlquist.Data XRat)) (op : Op XRat)
    (w' : World XRat (Dahlquist.Data XRat)),
    (∀ u, u ≠ .message → lib.Reliable u) ∧ Exec3 lib Dahlquist.model 1000 (.initial fun _ => none) [new3 0] s ∧ s.theInstance 0 = some c ∧
    step Dahlquist.model 1000 ⟨c, s.theState, s.bufs⟩ op = .ret (w', .Error, .unit) ∧
    step3 lib Dahlquist.model 1000 s (.call 0 op) = .ub := by
  refine ⟨without .message, ?_⟩
  obtain ⟨⟨s, l⟩, e, h⟩ := Outcome.exists_of_is (r := step3 (without .message) (Dahlquist.model : Model XRat _) 1000 (.initial fun _ => none) (new3 0))
    (p := fun x => (x.1.theInstance 0).any fun c =>
      (step Dahlquist.model 1000 ⟨c, x.1.theState, x.1.bufs⟩ .terminate).is (fun y => y.2.1 == .Error && decide (y.2.2 = .unit)) &&
      (step3 (without .message) Dahlquist.model 1000 x.1 (.call 0 .terminate)).isUb) (by decide +kernel)
  obtain ⟨c, hc, h⟩ := exists_of_any h
  simp only [Bool.and_eq_true] at h
  obtain ⟨⟨w', st, o⟩, e1, h1⟩ := Outcome.exists_of_is h.1
  simp only [Bool.and_eq_true, beq_iff_eq, decide_eq_true_eq] at h1
  obtain ⟨rfl, rfl⟩ := h1
  exact ⟨s, c, .terminate, w', fun u hu => without_reliable hu, .cons rfl e (.nil _), hc, e1, Outcome.ub_of_isUb h.2⟩

/-- If there is no memory for the copy of the resource location, the instance is created without it, and the importer is not
told. -/
theorem C75_resource_lost : ∃ (lib : CLib) (s : State XRat (Dahlquist.Data XRat)) (c : Comp XRat (Dahlquist.Data XRat)),
    (∀ u, u ≠ .resource → lib.Reliable u) ∧ Exec3 lib Dahlquist.model 1000 (.initial fun _ => none) [new3 0] s ∧
    s.theInstance 0 = some c ∧ c.ctx.resourceLocation = none := by
  refine ⟨without .resource, ?_⟩
  obtain ⟨⟨s, l⟩, e, h⟩ := Outcome.exists_of_is (r := step3 (without .resource) (Dahlquist.model : Model XRat _) 1000 (.initial fun _ => none) (new3 0))
    (p := fun x => (x.1.theInstance 0).any fun c => c.ctx.resourceLocation.isNone) (by decide +kernel)
  obtain ⟨c, hc, h⟩ := exists_of_any h
  exact ⟨s, c, fun u hu => without_reliable hu, .cons rfl e (.nil _), hc, by simpa using h⟩

end FMI3

namespace FMI2

private def isUnit : Out XRat → Bool
  | .unit => true
  | _ => false

private theorem isUnit_iff {o : Out XRat} : isUnit o = true ↔ o = .unit := by cases o <;> simp [isUnit]

/-- C75 is violated: if there is no memory for the copy of the name, `fmi2Instantiate` returns NULL, and the memory for the instance
stays allocated. -/
theorem C75_violated_leak : ∃ (lib : CLib) (s : State XRat (Dahlquist.Data XRat)), (∀ u, u ≠ .name → lib.Reliable u) ∧
    Exec2 lib Dahlquist.model 1000 (.initial fun _ => none) [new2 0] s ∧ s.Released ∧ ¬s.Empty := by
  refine ⟨without .name, ?_⟩
  obtain ⟨⟨s, l⟩, e, h⟩ := Outcome.exists_of_is (r := step2 (without .name) (Dahlquist.model : Model XRat _) 1000 (.initial fun _ => none) (new2 0))
    (p := fun x => decide (x.1.inst 0 = none) && (x.1.heap 0).isSome) (by decide +kernel)
  simp only [Bool.and_eq_true, decide_eq_true_eq] at h
  have e' := e
  simp only [step2, new2] at e'
  obtain ⟨s1, e1, e'⟩ := Outcome.bind_eq_ret.1 e'
  cases e'
  obtain ⟨⟨o, k1⟩, k2⟩ := create_vars e1
  refine ⟨s, fun u hu => without_reliable hu, .cons rfl e (.nil _), ⟨fun i => ?_, fun j => by rw [k2]; rfl⟩, fun hx => by simp [hx 0] at h⟩
  have := h.1
  rw [k1] at this ⊢
  simp only [upd, State.initial] at this ⊢
  split
  · simpa using this
  · rfl

/-- C75 is violated: if there is no memory for a log message, the call that logs it is undefined. -/
theorem C75_violated_message : ∃ (lib : CLib) (s : State XRat (Dahlquist.Data XRat)) (c : Comp XRat (Dahlquist.Data XRat)) (op : Op XRat)
    (w' : World XRat (Dahlquist.Data XRat)),
    (∀ u, u ≠ .message → lib.Reliable u) ∧ Exec2 lib Dahlquist.model 1000 (.initial fun _ => none) [new2 0] s ∧ s.theInstance 0 = some c ∧
    step Dahlquist.model 1000 ⟨c, s.theState, s.bufs⟩ op = .ret (w', .Error, .unit) ∧
    step2 lib Dahlquist.model 1000 s (.call 0 op) = .ub := by
  refine ⟨without .message, ?_⟩
  obtain ⟨⟨s, l⟩, e, h⟩ := Outcome.exists_of_is (r := step2 (without .message) (Dahlquist.model : Model XRat _) 1000 (.initial fun _ => none) (new2 0))
    (p := fun x => (x.1.theInstance 0).any fun c =>
      (step Dahlquist.model 1000 ⟨c, x.1.theState, x.1.bufs⟩ .terminate).is (fun y => y.2.1 == .Error && isUnit y.2.2) &&
      (step2 (without .message) Dahlquist.model 1000 x.1 (.call 0 .terminate)).isUb) (by decide +kernel)
  obtain ⟨c, hc, h⟩ := exists_of_any h
  simp only [Bool.and_eq_true] at h
  obtain ⟨⟨w', st, o⟩, e1, h1⟩ := Outcome.exists_of_is h.1
  simp only [Bool.and_eq_true, beq_iff_eq, isUnit_iff] at h1
  obtain ⟨rfl, rfl⟩ := h1
  exact ⟨s, c, .terminate, w', fun u hu => without_reliable hu, .cons rfl e (.nil _), hc, e1, Outcome.ub_of_isUb h.2⟩

/-- C75 is violated: if there is no memory for the FMU state, `fmi2DeSerializeFMUstate` is undefined (it copies to a NULL
pointer); on values it returns `fmi2OK`. -/
theorem C75_violated_load : ∃ (lib : CLib) (s : State XRat (Dahlquist.Data XRat)) (c : Comp XRat (Dahlquist.Data XRat)) (op : Op XRat)
    (cmds : List (Cmd2 XRat)) (w' : World XRat (Dahlquist.Data XRat)),
    (∀ u, u ≠ .load → lib.Reliable u) ∧ Exec2 lib Dahlquist.model 1000 (.initial (exBufs Dahlquist.model)) cmds s ∧
    s.theInstance 0 = some c ∧ step Dahlquist.model 1000 ⟨c, s.theState, s.bufs⟩ op = .ret (w', .OK, .unit) ∧
    step2 lib Dahlquist.model 1000 s (.call 0 op) = .ub := by
  refine ⟨without .load, ?_⟩
  obtain ⟨⟨s, l⟩, e, h⟩ := Outcome.exists_of_is (r := runAll2 (without .load) (Dahlquist.model : Model XRat _) 1000
      (.initial (exBufs Dahlquist.model)) [new2 0, .call 0 (.getFMUstate 0), .call 0 (.serializeFMUstate 0 0 (Dahlquist.model : Model XRat _).sizeOf)])
    (p := fun x => (x.1.theInstance 0).any fun c =>
      (step Dahlquist.model 1000 ⟨c, x.1.theState, x.1.bufs⟩ (.deSerializeFMUstate 0 (Dahlquist.model : Model XRat _).sizeOf 1)).is
        (fun y => y.2.1 == .OK && isUnit y.2.2) &&
      (step2 (without .load) Dahlquist.model 1000 x.1 (.call 0 (.deSerializeFMUstate 0 (Dahlquist.model : Model XRat _).sizeOf 1))).isUb)
    (by decide +kernel)
  obtain ⟨c, hc, h⟩ := exists_of_any h
  simp only [Bool.and_eq_true] at h
  obtain ⟨⟨w', st, o⟩, e1, h1⟩ := Outcome.exists_of_is h.1
  simp only [Bool.and_eq_true, beq_iff_eq, isUnit_iff] at h1
  obtain ⟨rfl, rfl⟩ := h1
  exact ⟨s, c, _, _, w', fun u hu => without_reliable hu, runAll2_exec e, hc, e1, Outcome.ub_of_isUb h.2⟩

/-- If there is no memory for the FMU state, `fmi2GetFMUstate` returns `fmi2OK` although it saves nothing. -/
theorem C75_save_lost : ∃ (lib : CLib) (s s' : State XRat (Dahlquist.Data XRat)),
    (∀ u, u ≠ .save → lib.Reliable u) ∧ Exec2 lib Dahlquist.model 1000 (.initial fun _ => none) [new2 0] s ∧
    step2 lib Dahlquist.model 1000 s (.call 0 (.getFMUstate 0)) = .ret (s', some (.OK, .unit)) ∧ s'.theState 0 = none := by
  refine ⟨without .save, ?_⟩
  obtain ⟨⟨s, l⟩, e, h⟩ := Outcome.exists_of_is (r := step2 (without .save) (Dahlquist.model : Model XRat _) 1000 (.initial fun _ => none) (new2 0))
    (p := fun x => (step2 (without .save) Dahlquist.model 1000 x.1 (.call 0 (.getFMUstate 0))).is fun y =>
      (y.2.any fun r => r.1 == .OK && isUnit r.2) && (y.1.theState 0).isNone) (by decide +kernel)
  obtain ⟨⟨s', r⟩, e1, h⟩ := Outcome.exists_of_is h
  simp only [Bool.and_eq_true] at h
  obtain ⟨⟨st, o⟩, rfl, h1⟩ := exists_of_any h.1
  simp only [Bool.and_eq_true, beq_iff_eq, isUnit_iff] at h1
  obtain ⟨rfl, rfl⟩ := h1
  exact ⟨s, s', fun u hu => without_reliable hu, .cons rfl e (.nil _), e1, by simpa using h.2⟩

end FMI2
end Verif
