import Verif.Lemmas.Updates
import Verif.Lemmas.ExReach
import Verif.Examples

/-!
# C80: the intermediate update callback is called once for every solver step, at its end

`Comp.updateTimes` (Verif/Spec/Updates.lean) are the times with which the importer's callback `intermediateUpdate` was called so far.
-/

set_option linter.unusedSectionVars false

namespace Verif

namespace FMI2
variable {F D : Type} [Arith F] [HasInf F] {m : Model F D}

/-- **C80** for FMI 2.0, which has no such callback: nothing is ever called. -/
theorem C80_fmi2 (hm : RefFMU2 m) {t : IType} {w : World F D} (h : Reachable m t w) : w.inst.updateTimes = [] :=
  (Reachable.inv hm.eff.okOrError (deaf hm) (fun _ _ _ _ _ _ c l e => by
    unfold instantiate at e
    split at e
    · simp at e
    · simp at e
    · exact createModelInstance_hears hm.start_trace e) h).inst.2

/-- Non-vacuity: VanDerPol is stepped in FMI 2.0. -/
example : (Ex.run2 VanDerPol.model .coSimulation [.setupExperiment (.fin 3) false (.fin 0), .enterInitializationMode, .exitInitializationMode,
    .doStep (.fin 3) (.fin (1 / 4))]).is (fun x => Ex.allOK x.2 && decide (x.1.inst.ctx.time = .fin (13 / 4))) = true := by
  decide +kernel

end FMI2

namespace FMI3
variable {F D : Type} [Arith F] [HasInf F] {m : Model F D}

/-- A new Co-Simulation instance. -/
theorem cs_hears (hm : RefFMU3 m) {name token resource loggingOn eventModeUsed earlyReturnAllowed logger iu mem} {c : Comp F D} {l}
    (e : instantiateCoSimulation m name token resource loggingOn eventModeUsed earlyReturnAllowed logger iu mem = (some c, l)) :
    Hears iu [] c := by
  unfold instantiateCoSimulation at e
  split at e
  · simp at e
  · simp only [Prod.mk.injEq, Option.map_eq_some_iff] at e
    obtain ⟨⟨c0, e1, rfl⟩, -⟩ := e
    have h : Hears iu [] c0 := createModelInstance_hears hm.start_trace (l := _) (Prod.ext e1 rfl :
      createModelInstance m true logger iu name token resource loggingOn mem .coSimulation = (some c0, _))
    exact h

/-- **C80**, without the callback: an instance that was created without it calls nothing, after every history of calls. -/
theorem C80_without (hm : RefFMU3 m) {name token resource loggingOn eventModeUsed earlyReturnAllowed logger mem} {c : Comp F D} {l}
    (hn : instantiateCoSimulation m name token resource loggingOn eventModeUsed earlyReturnAllowed logger false mem = (some c, l))
    {w₀ w : World F D} (h₀ : w₀.Initial c) {fuel : Nat} {ops : List (Op F)} {outs} (e : run m fuel w₀ ops = .ret (w, outs)) :
    w.inst.updateTimes = [] :=
  (run_inv hm.eff.okOrError (deaf hm) ops (WInv.initial h₀ (cs_hears hm hn)) _ e).inst.2

/-- **C80**, the other interface types: Model Exchange and Scheduled Execution instances call nothing. -/
theorem C80_others (hm : RefFMU3 m) {t : IType} (ht : t ≠ .coSimulation) {w : World F D} (h : Reachable m t w) : w.inst.updateTimes = [] :=
  (Reachable.inv hm.eff.okOrError (deaf hm) (fun c hc => by
    cases hc with
    | me e =>
      unfold instantiateModelExchange at e
      split at e
      · simp at e
      · exact createModelInstance_hears hm.start_trace e
    | cs => exact absurd rfl ht
    | @se name token resource loggingOn logger cu lo un mem _ _ e =>
      unfold instantiateScheduledExecution at e
      split at e
      · simp at e
      · simp only [Prod.mk.injEq, Option.map_eq_some_iff] at e
        obtain ⟨⟨c0, e1, rfl⟩, -⟩ := e
        have h : Hears false [] c0 := createModelInstance_hears hm.start_trace (l := _) (Prod.ext e1 rfl :
          createModelInstance m true logger false name token resource loggingOn mem .scheduledExecution = (some c0, _))
        exact h) h).inst.2

/-- **C80**, no other function calls the callback, in any state and whatever it returns. -/
theorem C80_only (hm : RefFMU3 m) {fuel : Nat} {w w' : World F D} {op : Op F} {s o} (hd : op.fn ≠ .doStep)
    (e : step m fuel w op = .ret (w', s, o)) : w'.inst.updateTimes = w.inst.updateTimes :=
  (step_hears hm ⟨rfl, rfl⟩ hd e).2

/-- **C80**. The instance was created with the callback and is in any reachable state; then Initialization Mode is entered with a start time,
and any calls follow that do not set the time anew, all `fmi3DoStep` among them successful. Then since Initialization Mode was entered the
callback was called for the times `start + 1 h, start + 2 h, ..., start + n h`, in this order and once each, and the time that the FMU
reports is the last of them, or the start time if there is none. -/
theorem C80_session (hm : RefFMU3 m) {name token resource loggingOn eventModeUsed earlyReturnAllowed logger mem} {c : Comp F D} {l}
    (hn : instantiateCoSimulation m name token resource loggingOn eventModeUsed earlyReturnAllowed logger true mem = (some c, l))
    {w₀ w w₁ w' : World F D} (h₀ : w₀.Initial c) {fuel₀ fuel₁ fuel : Nat} {before ops : List (Op F)} {outs₀ outs o start sd stop}
    (e₀ : run m fuel₀ w₀ before = .ret (w, outs₀))
    (e₁ : step m fuel₁ w (.enterInitializationMode start sd stop) = .ret (w₁, .OK, o))
    (hops : ∀ op ∈ ops, ¬ EndsSession op ∧ op.fn ≠ .setTime) (e : run m fuel w₁ ops = .ret (w', outs))
    (hok : ∀ x ∈ ops.zip outs, x.1.fn = .doStep → x.2.1 = .OK) (hf : fuel * ops.length < 2 ^ 64) :
    ∃ n, w'.inst.updateTimes = w.inst.updateTimes ++ (List.range n).map (fun i => gridPoint start m.h (i + 1)) ∧
      ReadsTime m w' (if n = 0 then start else gridPoint start m.h n) := by
  have hk := hm.eff.okOrError
  have hr : Reachable m .coSimulation w := ⟨c, w₀, fuel₀, before, outs₀, .cs hn, h₀, e₀⟩
  have hb := (run_inv hk (callback_inv m true) before (WInv.initial h₀ (cs_hears hm hn).1) _ e₀).inst
  have h1 := step_hears hm (w := w) ⟨hb, rfl⟩ (by simp [Op.fn]) e₁
  obtain ⟨t1, t2, t3⟩ := (SessionStart.init hr e₁).times hk
  obtain ⟨n, hn', a, h2⟩ := run_calls hm ops h1 hops e hok
  have s1 : w₁.inst.startTime = start := t3
  have s2 : w₁.inst.nSteps = 0 := t1
  refine ⟨n, ?_, ?_⟩
  · rw [h2.2, s1, s2, if_pos rfl, stepTimes]
    congr 1
    refine List.map_congr_left fun i hi => ?_
    have := List.mem_range.1 hi
    rw [Nat.zero_add, Nat.mod_eq_of_lt (by omega)]
  · have := a.time
    have ns := a.nSteps
    have key : w'.inst.ctx.time = if n = 0 then start else gridPoint start m.h n := by
      have h3 : w'.inst.times.time = w'.inst.ctx.time := rfl
      rw [← h3, this]
      split
      · exact t2
      · next hz => rw [ns, if_neg hz, t1, t3, Nat.zero_add, Nat.mod_eq_of_lt (by omega)]
    rw [← key]
    exact reads_time hk hm.timeVar _

/-- Non-vacuity of `C80_session`: Dahlquist with the callback, started at 2 and stepped over 0.3 and 0.2, has called it for 2.1, 2.2, 2.3, 2.4
and 2.5, and it reports 2.5. -/
example : ((instantiateCoSimulation (Dahlquist.model : Model XRat _) (some "i") (some (Dahlquist.model : Model XRat _).token) none true false false true true true).1.any
    fun c => (run Dahlquist.model 1000 (.fresh c) [.enterInitializationMode (.fin 2) false (.fin 0), .exitInitializationMode,
      .doStep (.fin 2) (.fin (3 / 10)) Ex.stepOut, .get .float64 (some [1]) 1 (some [.fin 7]) 1,
      .doStep (.fin (23 / 10)) (.fin (1 / 5)) Ex.stepOut, .get .float64 (some [0]) 1 (some [.fin 7]) 1]).is
      fun x => Ex.allOK x.2 && decide (x.1.inst.updateTimes = [.fin (21 / 10), .fin (22 / 10), .fin (23 / 10), .fin (24 / 10), .fin (25 / 10)]) &&
        decide (Ex.real3 x.2 5 = some (.fin (25 / 10)))) = true := by
  decide +kernel

/-- Non-vacuity of `C80_without`: the same without the callback. -/
example : (Ex.runCS3 Dahlquist.model false false [.enterInitializationMode (.fin 2) false (.fin 0), .exitInitializationMode,
    .doStep (.fin 2) (.fin (3 / 10)) Ex.stepOut]).is (fun x => Ex.allOK x.2 && decide (x.1.inst.updateTimes = [])) = true := by
  decide +kernel

/-- Non-vacuity of `C80_others`: Stair runs in Model Exchange. -/
example : (Ex.runME3 Stair.model [.enterInitializationMode (.fin 0) false (.fin 0), .exitInitializationMode]).is
    (fun x => Ex.allOK x.2) = true := by
  decide +kernel

end FMI3
end Verif
