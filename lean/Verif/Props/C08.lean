import Verif.Lemmas.Restore
import Verif.Examples

/-! # C08: serialised FMU states round-trip and wrong sizes are rejected -/

set_option linter.unusedSectionVars false

namespace Verif

namespace FMI2
variable {F D : Type} [Arith F] [HasInf F] {m : Model F D}

/-- **C08**, FMI 2.0, round trip. A reachable instance is saved in the FMU-state variable `i`, and
the state is serialised into buffer `b` and, after arbitrary calls `mid` that do not overwrite `b`,
deserialised into the FMU-state variable `j` (possibly `i` itself or one overwritten since). After
arbitrary calls `mid'` that leave `j` alone the state in `j` is set. Then every later sequence of
calls returns what it would have returned directly after the save. -/
theorem C08_roundtrip (hm : RefFMU2 m) {t : IType} {w w₁ w₂ w₃ w₄ w₅ w₆ : World F D}
    {i j b n n' : Nat} {f₁ f₂ f₃ f₄ f₅ f₆ : Nat} {mid mid' : List (Op F)} {o₁ o₂ o₄ o₆ outs outs'}
    (hw : Reachable m t w)
    (hsave : step m f₁ w (.getFMUstate i) = .ret (w₁, .OK, o₁))
    (hser : step m f₂ w₁ (.serializeFMUstate i b n) = .ret (w₂, .OK, o₂))
    (hmid : run m f₃ w₂ mid = .ret (w₃, outs)) (hb : ∀ op ∈ mid, b ∉ op.bufsWritten)
    (hdes : step m f₄ w₃ (.deSerializeFMUstate b n' j) = .ret (w₄, .OK, o₄))
    (hmid' : run m f₅ w₄ mid' = .ret (w₅, outs')) (hj : ∀ op ∈ mid', j ∉ op.slotsWritten)
    (hset : step m f₆ w₅ (.setFMUstate j) = .ret (w₆, .OK, o₆)) :
    w₆.inst.ctx.time = w₁.inst.ctx.time ∧ w₆.inst.ctx.state = w₁.inst.ctx.state ∧
    ∀ fuel later, Separate ((.serializeFMUstate i b n :: mid) ++ .deSerializeFMUstate b n' j :: mid') later →
      (run m fuel w₆ later).shown = (run m fuel w₁ later).shown := by
  obtain ⟨E, hr, hE⟩ := hm.respects
  have h1 := getFMUstate_ok hsave
  have hs1 : w₁.slots i = some w.inst := by rw [h1]; simp
  obtain ⟨-, buf, hbuf, -, h2⟩ := serializeFMUstate_ok hs1 hser
  have hb3 : w₃.bufs b = some { buf with image := some w.inst } := by
    rw [(run_frame hmid).2 b hb, h2]; simp
  obtain ⟨-, h4⟩ := deSerializeFMUstate_ok hb3 rfl hdes
  have hj5 : w₅.slots j = some w.inst := by rw [(run_frame hmid').1 j hj, h4]; simp
  refine restore hm.eff.okOrError hr hE hw ⟨_, h1, fun j x e => ?_⟩
    ((History.cons hser (.of_run hmid)).append (.cons hdes (.of_run hmid'))) hj5 hset
  split at e
  · exact .inl (Option.some.inj e).symm
  · exact .inr e

/-- **C08**, FMI 2.0, success. In a mode in which the functions may be called, a saved state can be
serialised with the size the FMU reports into any buffer of at least that size, and deserialised
from there. -/
theorem C08_succeeds {w : World F D} {i j b n k : Nat} {s : Comp F D} {buf : Buffer F D} {w₀ o}
    (hsize : ∀ fuel, step m fuel w (.serializedFMUstateSize (some k)) = .ret (w₀, .OK, o))
    (ho : o = .size (some n)) (hs : w.slots i = some s) (hb : w.bufs b = some buf)
    (hcap : n ≤ buf.capacity) (fuel : Nat) :
    ∃ w₁ w₂, step m fuel w (.serializeFMUstate i b n) = .ret (w₁, .OK, .unit) ∧
      step m fuel w₁ (.deSerializeFMUstate b n j) = .ret (w₂, .OK, .unit) := by
  have h := hsize fuel
  simp only [step, World.run, serializedFMUstateSize, begin, beginFunction] at h
  split at h
  · next ha =>
    simp only [Outcome.ret_bind, Outcome.ret.injEq, Prod.mk.injEq] at h
    obtain ⟨-, -, rfl⟩ := h
    simp only [Out.size.injEq, Option.some.injEq] at ho
    subst ho
    have hc : ¬ buf.capacity < m.sizeOf := by omega
    refine ⟨{ w with bufs := fun k => if k = b then some { buf with image := some s } else w.bufs k },
      { w with bufs := fun k => if k = b then some { buf with image := some s } else w.bufs k,
               slots := fun k => if k = j then some s else w.slots k }, ?_, ?_⟩
    · simp [step, World.runBuf, serializeFMUstate, begin, beginFunction, ha, hs, hb, Buffer.store, hc]
    · simp [step, World.runSlot, deSerializeFMUstate, begin, beginFunction, ha, Buffer.load, hc]
  · simp at h

/-- **C08**, FMI 2.0, wrong sizes. With any other size than the one the FMU reports both functions
return an error, terminate the instance, and write nothing. -/
theorem C08_wrong_size {w w₀ : World F D} {k n n' : Nat} {fuel : Nat} {o}
    (hsize : step m fuel w (.serializedFMUstateSize (some k)) = .ret (w₀, .OK, o))
    (ho : o = .size (some n)) (hn : n' ≠ n) (i b fuel' : Nat) :
    (∃ w', step m fuel' w (.serializeFMUstate i b n') = .ret (w', .Error, .unit) ∧
      w'.inst.ctx.state = .terminated ∧ w'.slots = w.slots ∧ w'.bufs = w.bufs) ∧
    ∃ w', step m fuel' w (.deSerializeFMUstate b n' i) = .ret (w', .Error, .unit) ∧
      w'.inst.ctx.state = .terminated ∧ w'.slots = w.slots ∧ w'.bufs = w.bufs := by
  have h := hsize
  simp only [step, World.run, serializedFMUstateSize, begin, beginFunction] at h
  split at h
  · next ha =>
    simp only [Outcome.ret_bind, Outcome.ret.injEq, Prod.mk.injEq] at h
    obtain ⟨-, -, rfl⟩ := h
    simp only [Out.size.injEq, Option.some.injEq] at ho
    subst ho
    constructor
    · cases hs : w.slots i <;>
        simp [step, World.runBuf, serializeFMUstate, begin, beginFunction, ha, hs, hn, Comp.invalidArg,
          Comp.setState, Comp.logError] <;> (funext j; split <;> simp_all)
    · simp [step, World.runSlot, deSerializeFMUstate, begin, beginFunction, ha, hn, Comp.invalidArg,
          Comp.setState, Comp.logError] <;> (funext j; split <;> simp_all)
  · simp at h

/-- Non-vacuity: the state of a falling ball goes through a buffer. -/
example : ((Ex.new2 BouncingBall.model .coSimulation).map fun c =>
    (run BouncingBall.model 1000 ⟨c, fun _ => none, fun _ => some ⟨10000, none⟩⟩ (Ex.init2 ++
    [.doStep (.fin 0) (.fin (1 / 50)), .getFMUstate 0,
     .serializeFMUstate 0 0 (BouncingBall.model (F := XRat)).sizeOf, .freeFMUstate 0,
     .doStep (.fin (1 / 50)) (.fin (1 / 50)), .getReal (some [1]) 1 (some [.fin 0]),
     .deSerializeFMUstate 0 (BouncingBall.model (F := XRat)).sizeOf 1,
     .setFMUstate 1, .doStep (.fin (1 / 50)) (.fin (1 / 50)),
     .getReal (some [1]) 1 (some [.fin 0])])).is (fun x =>
       Ex.allOK x.2 && Ex.real2 x.2 8 == Ex.real2 x.2 12 && (Ex.real2 x.2 8).any fun a =>
         a != .fin 1)) = some true := by decide +kernel

end FMI2

namespace FMI3
variable {F D : Type} [Arith F] [HasInf F] {m : Model F D}

/-- **C08**, FMI 3.0, round trip. A reachable instance is saved in the FMU-state variable `i`, and
the state is serialised into buffer `b` and, after arbitrary calls `mid` that do not overwrite `b`,
deserialised into the FMU-state variable `j` (possibly `i` itself or one overwritten since). After
arbitrary calls `mid'` that leave `j` alone the state in `j` is set. Then every later sequence of
calls returns what it would have returned directly after the save. -/
theorem C08_roundtrip (hm : RefFMU3 m) {t : IType} {w w₁ w₂ w₃ w₄ w₅ w₆ : World F D}
    {i j b n n' : Nat} {f₁ f₂ f₃ f₄ f₅ f₆ : Nat} {mid mid' : List (Op F)} {o₁ o₂ o₄ o₆ outs outs'}
    (hw : Reachable m t w)
    (hsave : step m f₁ w (.getFMUState i) = .ret (w₁, .OK, o₁))
    (hser : step m f₂ w₁ (.serializeFMUState i b n) = .ret (w₂, .OK, o₂))
    (hmid : run m f₃ w₂ mid = .ret (w₃, outs)) (hb : ∀ op ∈ mid, b ∉ op.bufsWritten)
    (hdes : step m f₄ w₃ (.deserializeFMUState b n' j) = .ret (w₄, .OK, o₄))
    (hmid' : run m f₅ w₄ mid' = .ret (w₅, outs')) (hj : ∀ op ∈ mid', j ∉ op.slotsWritten)
    (hset : step m f₆ w₅ (.setFMUState j) = .ret (w₆, .OK, o₆)) :
    w₆.inst.ctx.time = w₁.inst.ctx.time ∧ w₆.inst.ctx.state = w₁.inst.ctx.state ∧
    ∀ fuel later, Separate ((.serializeFMUState i b n :: mid) ++ .deserializeFMUState b n' j :: mid') later →
      (run m fuel w₆ later).shown = (run m fuel w₁ later).shown := by
  obtain ⟨E, hr, hE⟩ := hm.respects
  have h1 := getFMUState_ok hsave
  have hs1 : w₁.slots i = some w.inst := by rw [h1]; simp
  obtain ⟨-, buf, hbuf, -, h2⟩ := serializeFMUState_ok hs1 hser
  have hb3 : w₃.bufs b = some { buf with image := some w.inst } := by
    rw [(run_frame hmid).2 b hb, h2]; simp
  obtain ⟨-, h4⟩ := deserializeFMUState_ok hb3 rfl hdes
  have hj5 : w₅.slots j = some w.inst := by rw [(run_frame hmid').1 j hj, h4]; simp
  refine restore hm.eff.okOrError hr hE hw ⟨_, h1, fun j x e => ?_⟩
    ((History.cons hser (.of_run hmid)).append (.cons hdes (.of_run hmid'))) hj5 hset
  split at e
  · exact .inl (Option.some.inj e).symm
  · exact .inr e

/-- **C08**, FMI 3.0, success. In a mode in which the functions may be called, a saved state can be
serialised with the size the FMU reports into any buffer of at least that size, and deserialised
from there. -/
theorem C08_succeeds {w : World F D} {i j b n k : Nat} {s : Comp F D} {buf : Buffer F D} {w₀ o}
    (hsize : ∀ fuel, step m fuel w (.serializedFMUStateSize (some k)) = .ret (w₀, .OK, o))
    (ho : o = .size (some n)) (hs : w.slots i = some s) (hb : w.bufs b = some buf)
    (hcap : n ≤ buf.capacity) (fuel : Nat) :
    ∃ w₁ w₂, step m fuel w (.serializeFMUState i b n) = .ret (w₁, .OK, .unit) ∧
      step m fuel w₁ (.deserializeFMUState b n j) = .ret (w₂, .OK, .unit) := by
  have h := hsize fuel
  simp only [step, World.run, serializedFMUStateSize, begin, beginFunction] at h
  split at h
  · next ha =>
    simp only [Outcome.ret_bind, Outcome.ret.injEq, Prod.mk.injEq] at h
    obtain ⟨-, -, rfl⟩ := h
    simp only [Out.size.injEq, Option.some.injEq] at ho
    subst ho
    have hc : ¬ buf.capacity < m.sizeOf := by omega
    refine ⟨{ w with bufs := fun k => if k = b then some { buf with image := some s } else w.bufs k },
      { w with bufs := fun k => if k = b then some { buf with image := some s } else w.bufs k,
               slots := fun k => if k = j then some s else w.slots k }, ?_, ?_⟩
    · simp [step, World.runBuf, serializeFMUState, begin, beginFunction, ha, hs, hb, Buffer.store, hc]
    · simp [step, World.runSlot, deserializeFMUState, begin, beginFunction, ha, Buffer.load, hc]
  · simp at h

/-- **C08**, FMI 3.0, wrong sizes. With any other size than the one the FMU reports both functions
return an error, terminate the instance, and write nothing. -/
theorem C08_wrong_size {w w₀ : World F D} {k n n' : Nat} {fuel : Nat} {o}
    (hsize : step m fuel w (.serializedFMUStateSize (some k)) = .ret (w₀, .OK, o))
    (ho : o = .size (some n)) (hn : n' ≠ n) (i b fuel' : Nat) :
    (∃ w', step m fuel' w (.serializeFMUState i b n') = .ret (w', .Error, .unit) ∧
      w'.inst.ctx.state = .terminated ∧ w'.slots = w.slots ∧ w'.bufs = w.bufs) ∧
    ∃ w', step m fuel' w (.deserializeFMUState b n' i) = .ret (w', .Error, .unit) ∧
      w'.inst.ctx.state = .terminated ∧ w'.slots = w.slots ∧ w'.bufs = w.bufs := by
  have h := hsize
  simp only [step, World.run, serializedFMUStateSize, begin, beginFunction] at h
  split at h
  · next ha =>
    simp only [Outcome.ret_bind, Outcome.ret.injEq, Prod.mk.injEq] at h
    obtain ⟨-, -, rfl⟩ := h
    simp only [Out.size.injEq, Option.some.injEq] at ho
    subst ho
    constructor
    · cases hs : w.slots i <;>
        simp [step, World.runBuf, serializeFMUState, begin, beginFunction, ha, hs, hn, Comp.invalidArg,
          Comp.setState, Comp.logError] <;> (funext j; split <;> simp_all)
    · simp [step, World.runSlot, deserializeFMUState, begin, beginFunction, ha, hn, Comp.invalidArg,
          Comp.setState, Comp.logError] <;> (funext j; split <;> simp_all)
  · simp at h

/-- Non-vacuity: the state of a falling ball goes through a buffer. -/
example : ((Ex.newCS3 BouncingBall.model false false).map fun c =>
    (run BouncingBall.model 1000 ⟨c, fun _ => none, fun _ => some ⟨10000, none⟩⟩ (Ex.init3 ++
    [.doStep (.fin 0) (.fin (1 / 50)) Ex.stepOut, .getFMUState 0,
     .serializeFMUState 0 0 (BouncingBall.model (F := XRat)).sizeOf, .freeFMUState 0,
     .doStep (.fin (1 / 50)) (.fin (1 / 50)) Ex.stepOut, .get .float64 (some [1]) 1 (some [.fin 0]) 1,
     .deserializeFMUState 0 (BouncingBall.model (F := XRat)).sizeOf 1,
     .setFMUState 1, .doStep (.fin (1 / 50)) (.fin (1 / 50)) Ex.stepOut,
     .get .float64 (some [1]) 1 (some [.fin 0]) 1])).is (fun x =>
       Ex.allOK x.2 && Ex.real3 x.2 7 == Ex.real3 x.2 11 && (Ex.real3 x.2 7).any fun a =>
         a != .fin 1)) = some true := by decide +kernel

end FMI3

end Verif
