import Verif.Lemmas.Logging
import Verif.Examples

/-!
# C18: logging is fully controlled by the logging switches
-/

set_option linter.unusedSectionVars false

namespace Verif
variable {F D : Type} [Arith F] [HasInf F] {m : Model F D}

namespace FMI2

/-- **C18**, FMI 2.0: whatever a call is, the messages it delivers are permitted by the switches as
they are after the call, and there is a logger. -/
theorem C18_messages (hm : RefFMU2 m) {fuel : Nat} {w w' : World F D} {op : Op F} {s : Status}
    {o : Out F} (h : step m fuel w op = .ret (w', s, o)) :
    ∃ l, w'.inst.mv.trace = w.inst.mv.trace ++ l ∧
      ∀ e ∈ l, w'.inst.switches.permits w.inst.ctx.logger e := by
  by_cases hd : op.fn = .setDebugLogging
  · cases op <;> simp only [Op.fn, reduceCtorEq] at hd
    case setDebugLogging on n cats =>
    simp only [step, World.run, setDebugLogging, begin, beginFunction] at h
    obtain ⟨⟨c, s', b⟩, e, h⟩ := Outcome.bind_eq_ret.1 h
    cases h
    split at e
    · obtain ⟨c₁, e, hc⟩ := callLast_eq e
      have := (setDebugLogging_eq e).2.2
      rcases hc with rfl | ⟨md, rfl⟩
      · exact this.2.2
      · exact this.2.2
    · cases e
      exact ((Logs.refl w.inst).log _).2.2
  · have := step_keep hm.eff.okOrError (Logs.callInv hm.eff hm.start_trace _ _ _)
      (fun _ _ _ => trivial) (Logs.refl w.inst) (fun e => absurd e hd) _ h
    exact this.1.symm ▸ this.2.2

/-- The switches change by `fmi2SetDebugLogging` only, and then as specified. -/
theorem C18_switches (hm : RefFMU2 m) {fuel : Nat} {w w' : World F D} {op : Op F} {s : Status}
    {o : Out F} (h : step m fuel w op = .ret (w', s, o)) :
    match op with
    | .setDebugLogging on n cats =>
      if w.inst.ctx.state ∈ Spec.allowedIn .setDebugLogging then
        w'.inst.switches = (w.inst.switches.set on n cats).1 ∧
          s = if (w.inst.switches.set on n cats).2 then .OK else .Error
      else w'.inst.switches = w.inst.switches ∧ s = .Error
    | _ => w'.inst.switches = w.inst.switches := by
  by_cases hd : op.fn = .setDebugLogging
  · cases op <;> simp only [Op.fn, reduceCtorEq] at hd
    case setDebugLogging on n cats =>
    have ha := allowed_fn w.inst.ctx Fn.setDebugLogging
    simp only [Fn.mask] at ha
    simp only [step, World.run, setDebugLogging, begin, beginFunction] at h
    obtain ⟨⟨c, s', b⟩, e, h⟩ := Outcome.bind_eq_ret.1 h
    cases h
    simp only
    split at e
    · next hal =>
      rw [if_pos (ha.1 hal)]
      obtain ⟨c₁, e, hc⟩ := callLast_eq e
      have := setDebugLogging_eq e
      rcases hc with rfl | ⟨md, rfl⟩
      · exact ⟨this.1, this.2.1⟩
      · exact ⟨this.1, this.2.1⟩
    · next hal =>
      rw [if_neg (fun h => hal (ha.2 h))]
      cases e
      exact ⟨rfl, rfl⟩
  · have := (step_keep hm.eff.okOrError (Logs.callInv hm.eff hm.start_trace _ _ _)
      (fun _ _ _ => trivial) (Logs.refl w.inst) (fun e => absurd e hd) _ h).1
    cases op <;> first | exact this | exact absurd rfl hd

/-- Non-vacuity: with error logging on a refused call is logged, after switching it off it is not. -/
example : (Ex.run2 Dahlquist.model .coSimulation [.setTime (.fin 1)]).is
    (fun x => x.1.inst.mv.trace.length == 1) = true ∧
    (Ex.run2 Dahlquist.model .coSimulation [.setDebugLogging false 1 (some [some "logStatusError"]),
      .setTime (.fin 1)]).is (fun x => x.1.inst.mv.trace.length == 0 &&
        x.1.inst.switches == ⟨false, true⟩) = true ∧
    (Ex.run2 Dahlquist.model .coSimulation [.setDebugLogging false 2 (some [some "logEvents", some "x"])]).is
      (fun x => x.2.map (·.1) == [.Error] && x.1.inst.switches == ⟨true, false⟩) = true := by
  decide +kernel

/-- Messages about a failed instantiation have the category "error", which is none of the two log
categories: no setting of the switches permits them. -/
theorem C18_violated : ∃ e, instantiate (Dahlquist.model : Model XRat _) (some "i") .coSimulation
      (some "wrong") none (some true) false true = (none, [e]) ∧
      ∀ k : Switches, ¬ k.permits true e := by
  refine ⟨.log .Error "error" "Wrong GUID.", by decide +kernel, fun k h => ?_⟩
  rcases h.2 with ⟨h, _⟩ | ⟨h, _⟩ <;> exact absurd h (by decide)

end FMI2

namespace FMI3

/-- **C18**, FMI 3.0: as for FMI 2.0. -/
theorem C18_messages (hm : RefFMU3 m) {fuel : Nat} {w w' : World F D} {op : Op F} {s : Status}
    {o : Out F} (h : step m fuel w op = .ret (w', s, o)) :
    ∃ l, w'.inst.mv.trace = w.inst.mv.trace ++ l ∧
      ∀ e ∈ l, w'.inst.switches.permits w.inst.ctx.logger e := by
  by_cases hd : op.fn = .setDebugLogging
  · cases op <;> simp only [Op.fn, reduceCtorEq] at hd
    case setDebugLogging on n cats =>
    simp only [step, World.run, setDebugLogging, begin, beginFunction] at h
    obtain ⟨⟨c, s', b⟩, e, h⟩ := Outcome.bind_eq_ret.1 h
    cases h
    split at e
    · obtain ⟨c₁, e, hc⟩ := callLast_eq e
      have := (setDebugLogging_eq e).2.2
      rcases hc with rfl | ⟨md, rfl⟩
      · exact this.2.2
      · exact this.2.2
    · cases e
      exact ((Logs.refl w.inst).log _).2.2
  · have := step_keep hm.eff.okOrError (Logs.callInv hm.eff hm.start_trace _ _ _)
      (fun _ _ _ => trivial) (Logs.refl w.inst) (fun e => absurd e hd) _ h
    exact this.1.symm ▸ this.2.2

/-- The switches change by `fmi3SetDebugLogging` only, and then as specified. -/
theorem C18_switches (hm : RefFMU3 m) {fuel : Nat} {w w' : World F D} {op : Op F} {s : Status}
    {o : Out F} (h : step m fuel w op = .ret (w', s, o)) :
    match op with
    | .setDebugLogging on n cats =>
      if w.inst.ctx.state ∈ Spec.allowedIn .setDebugLogging then
        w'.inst.switches = (w.inst.switches.set on n cats).1 ∧
          s = if (w.inst.switches.set on n cats).2 then .OK else .Error
      else w'.inst.switches = w.inst.switches ∧ s = .Error
    | _ => w'.inst.switches = w.inst.switches := by
  by_cases hd : op.fn = .setDebugLogging
  · cases op <;> simp only [Op.fn, reduceCtorEq] at hd
    case setDebugLogging on n cats =>
    have ha := allowed_fn w.inst.ctx Fn.setDebugLogging
    simp only [Fn.mask] at ha
    simp only [step, World.run, setDebugLogging, begin, beginFunction] at h
    obtain ⟨⟨c, s', b⟩, e, h⟩ := Outcome.bind_eq_ret.1 h
    cases h
    simp only
    split at e
    · next hal =>
      rw [if_pos (ha.1 hal)]
      obtain ⟨c₁, e, hc⟩ := callLast_eq e
      have := setDebugLogging_eq e
      rcases hc with rfl | ⟨md, rfl⟩
      · exact ⟨this.1, this.2.1⟩
      · exact ⟨this.1, this.2.1⟩
    · next hal =>
      rw [if_neg (fun h => hal (ha.2 h))]
      cases e
      exact ⟨rfl, rfl⟩
  · have := (step_keep hm.eff.okOrError (Logs.callInv hm.eff hm.start_trace _ _ _)
      (fun _ _ _ => trivial) (Logs.refl w.inst) (fun e => absurd e hd) _ h).1
    cases op <;> first | exact this | exact absurd rfl hd

/-- Non-vacuity. -/
example : (Ex.runCS3 Dahlquist.model false false [.setTime (.fin 1)]).is
    (fun x => x.1.inst.mv.trace.length == 1) = true ∧
    (Ex.runCS3 Dahlquist.model false false [.setDebugLogging false 0 none, .setTime (.fin 1)]).is
    (fun x => x.1.inst.mv.trace.length == 0) = true := by
  decide +kernel

end FMI3
end Verif
