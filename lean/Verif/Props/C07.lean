import Verif.Lemmas.Restore
import Verif.Examples

/-! # C07: saving and restoring an FMU state is transparent -/

set_option linter.unusedSectionVars false

namespace Verif

namespace FMI2
variable {F D : Type} [Arith F] [HasInf F] {m : Model F D}

/-- **C07**, FMI 2.0. A reachable instance is saved in the FMU-state variable `i`, arbitrary calls
`mid` follow that do not overwrite or free `i`, then the state is set. Then the instance has the
time and mode it had at the save, and every sequence of calls `later` returns the same statuses and
output values (or runs into undefined behaviour, or never returns, alike) as it would have directly
after the save. The only restriction on `later` is that it does not mention other saved states or
buffers that `mid` has overwritten: these belong to the importer. -/
theorem C07_restore (hm : RefFMU2 m) {t : IType} {w w₁ w₂ w₃ : World F D} {i : Nat}
    {f₁ f₂ f₃ : Nat} {mid : List (Op F)} {o₁ outs o₃} (hw : Reachable m t w)
    (hsave : step m f₁ w (.getFMUstate i) = .ret (w₁, .OK, o₁))
    (hmid : run m f₂ w₁ mid = .ret (w₂, outs)) (hi : ∀ op ∈ mid, i ∉ op.slotsWritten)
    (hset : step m f₃ w₂ (.setFMUstate i) = .ret (w₃, .OK, o₃)) :
    w₃.inst.ctx.time = w₁.inst.ctx.time ∧ w₃.inst.ctx.state = w₁.inst.ctx.state ∧
    ∀ fuel later, Separate mid later →
      (run m fuel w₃ later).shown = (run m fuel w₁ later).shown := by
  obtain ⟨E, hr, hE⟩ := hm.respects
  have h1 := getFMUstate_ok hsave
  refine restore hm.eff.okOrError hr hE hw ⟨_, h1, fun j x e => ?_⟩ (.of_run hmid) ?_ hset
  · split at e
    · exact .inl (Option.some.inj e).symm
    · exact .inr e
  · rw [(run_frame hmid).1 i hi, h1]; simp

/-- Non-vacuity: a falling ball is saved after a step, moved to another time, terminated by an
error and restored; the next step is accepted at the old communication point and gives the old height. -/
example : (Ex.run2 BouncingBall.model .coSimulation (Ex.init2 ++
    [.doStep (.fin 0) (.fin (1 / 50)), .getFMUstate 0,
     .doStep (.fin (1 / 50)) (.fin (1 / 50)), .getReal (some [1]) 1 (some [.fin 0]),
     .doStep (.fin (1 / 25)) (.fin (1 / 50)), .setReal (some [1]) 1 (some [.fin 7]),
     .setFMUstate 0, .doStep (.fin (1 / 50)) (.fin (1 / 50)),
     .getReal (some [1]) 1 (some [.fin 0])])).is (fun x =>
       (x.2.filter fun r => r.1 != .OK).length == 1 && Ex.real2 x.2 6 == Ex.real2 x.2 11 && (Ex.real2 x.2 6).any fun a =>
         a != .fin 7 && a != .fin 1) = true := by decide +kernel

end FMI2

namespace FMI3
variable {F D : Type} [Arith F] [HasInf F] {m : Model F D}

/-- **C07**, FMI 3.0. A reachable instance is saved in the FMU-state variable `i`, arbitrary calls
`mid` follow that do not overwrite or free `i`, then the state is set. Then the instance has the
time and mode it had at the save, and every sequence of calls `later` returns the same statuses and
output values (or runs into undefined behaviour, or never returns, alike) as it would have directly
after the save. The only restriction on `later` is that it does not mention other saved states or
buffers that `mid` has overwritten: these belong to the importer. -/
theorem C07_restore (hm : RefFMU3 m) {t : IType} {w w₁ w₂ w₃ : World F D} {i : Nat}
    {f₁ f₂ f₃ : Nat} {mid : List (Op F)} {o₁ outs o₃} (hw : Reachable m t w)
    (hsave : step m f₁ w (.getFMUState i) = .ret (w₁, .OK, o₁))
    (hmid : run m f₂ w₁ mid = .ret (w₂, outs)) (hi : ∀ op ∈ mid, i ∉ op.slotsWritten)
    (hset : step m f₃ w₂ (.setFMUState i) = .ret (w₃, .OK, o₃)) :
    w₃.inst.ctx.time = w₁.inst.ctx.time ∧ w₃.inst.ctx.state = w₁.inst.ctx.state ∧
    ∀ fuel later, Separate mid later →
      (run m fuel w₃ later).shown = (run m fuel w₁ later).shown := by
  obtain ⟨E, hr, hE⟩ := hm.respects
  have h1 := getFMUState_ok hsave
  refine restore hm.eff.okOrError hr hE hw ⟨_, h1, fun j x e => ?_⟩ (.of_run hmid) ?_ hset
  · split at e
    · exact .inl (Option.some.inj e).symm
    · exact .inr e
  · rw [(run_frame hmid).1 i hi, h1]; simp

/-- Non-vacuity: as for FMI 2.0. -/
example : (Ex.runCS3 BouncingBall.model false false (Ex.init3 ++
    [.doStep (.fin 0) (.fin (1 / 50)) Ex.stepOut, .getFMUState 0,
     .doStep (.fin (1 / 50)) (.fin (1 / 50)) Ex.stepOut, .get .float64 (some [1]) 1 (some [.fin 0]) 1,
     .doStep (.fin (1 / 25)) (.fin (1 / 50)) Ex.stepOut, .set .float64 (some [1]) 1 (some [.fin 7]) 1,
     .setFMUState 0, .doStep (.fin (1 / 50)) (.fin (1 / 50)) Ex.stepOut,
     .get .float64 (some [1]) 1 (some [.fin 0]) 1])).is (fun x =>
       (x.2.filter fun r => r.1 != .OK).length == 1 && Ex.real3 x.2 5 == Ex.real3 x.2 10 && (Ex.real3 x.2 5).any fun a =>
         a != .fin 7 && a != .fin 1) = true := by decide +kernel

end FMI3

end Verif
