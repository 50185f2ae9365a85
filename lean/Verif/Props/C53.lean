import Verif.Lemmas.Modes3
import Verif.Examples

/-!
# C53: every accepted call moves the instance to the mode of the state machine
-/

set_option linter.unusedSectionVars false

namespace Verif
variable {F D : Type} [Arith F] [HasInf F] {m : Model F D}

/-- **C53**, FMI 2.0: after a call that did not fail the call was allowed in the old mode, and the
new mode is the one of the state machine (`Spec.nextMode`; after restoring an FMU state the mode
saved in it); after a call that failed the instance is terminated. The interface type never
changes. -/
theorem FMI2.C53_mode_after_call (hm : RefFMU2 m) {fuel : Nat} {w w' : FMI2.World F D}
    {op : FMI2.Op F} {s : Status} {o : FMI2.Out F}
    (h : FMI2.step m fuel w op = .ret (w', s, o)) :
    w'.inst.ctx.typ = w.inst.ctx.typ ∧
    (s = .Error ∧ w'.inst.ctx.state = .terminated ∨
     (s = .OK ∨ s = .Discard) ∧ w.inst.ctx.state ∈ FMI2.Spec.allowedIn op.fn ∧
       w'.inst.ctx.state = FMI2.Spec.modeAfter w op) :=
  FMI2.step_mode' hm.eff.okOrError _ h

/-- **C53**, FMI 3.0: the same, except that a call of a function the FMU does not offer fails
without changing the mode. -/
theorem FMI3.C53_mode_after_call (hm : RefFMU3 m) {fuel : Nat} {w w' : FMI3.World F D}
    {op : FMI3.Op F} {s : Status} {o : FMI3.Out F}
    (h : FMI3.step m fuel w op = .ret (w', s, o)) :
    w'.inst.ctx.typ = w.inst.ctx.typ ∧
    (s = .Error ∧ w'.inst.ctx.state = .terminated ∨
     (s = .OK ∨ s = .Discard) ∧ w.inst.ctx.state ∈ FMI3.Spec.allowedIn op.fn ∧
       w'.inst.ctx.state = FMI3.Spec.modeAfter w op ∨
     op.unsupported m = true ∧ s = .Error ∧ w'.inst.ctx.state = w.inst.ctx.state) :=
  FMI3.step_mode' hm.eff.okOrError _ h

/-- Non-vacuity, FMI 2.0: the modes along a Model Exchange history. -/
example : ([[], Ex.init2, Ex.init2 ++ [.enterContinuousTimeMode], Ex.init2 ++ [.terminate],
    Ex.init2 ++ [.enterContinuousTimeMode, .doStep (.fin 0) (.fin 1)]].map fun ops =>
    (Ex.run2 Dahlquist.model .modelExchange ops).is fun x => x.1.inst.ctx.state ==
      match ops.length with
      | 0 => .instantiated | 3 => .eventMode
      | 4 => if ops.any (fun o => o.fn == .terminate) then .terminated else .continuousTimeMode
      | _ => .terminated) = [true, true, true, true, true] := by
  decide +kernel

/-- Non-vacuity, FMI 3.0: the modes along a Co-Simulation history. -/
example : ([[], [.enterConfigurationMode], Ex.init3, Ex.init3 ++ [.enterConfigurationMode],
    Ex.init3 ++ [.enterStepMode]].map fun ops =>
    (Ex.runCS3 BouncingBall.model true true ops).is fun x => x.1.inst.ctx.state ==
      match ops.length with
      | 0 => .instantiated | 1 => .configurationMode | 2 => .eventMode
      | _ => if ops.any (fun o => o.fn == .enterStepMode) then .stepMode else .reconfigurationMode)
      = [true, true, true, true, true] := by
  decide +kernel

end Verif
