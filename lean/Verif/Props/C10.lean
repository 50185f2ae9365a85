import Verif.RefFMUs
import Verif.Lemmas.Reach3
import Verif.Examples

/-!
# C10: when instantiation succeeds
-/

set_option linter.unusedSectionVars false

namespace Verif
variable {F D : Type} [Arith F]

/-- An instance name was given. -/
def Named (name : Option String) : Prop := ∃ n, name = some n ∧ n ≠ ""

/-- The message for the first check that fails: name, presence of the token, equality with the
FMU's token. `what` is what the version of the standard calls the token. -/
def refusal (what : String) (name token : Option String) : String :=
  if name = none ∨ name = some "" then "Missing instance name."
  else if token = none ∨ token = some "" then "Missing " ++ what ++ "."
  else "Wrong " ++ what ++ "."

theorem createModelInstance_iff {m : Model F D} (ht : m.token ≠ "")
    {ver3 logger iu name token resource loggingOn typ} :
    (createModelInstance m ver3 logger iu name token resource loggingOn true typ).1.isSome ↔
      Named name ∧ token = some m.token := by
  unfold createModelInstance Named
  cases name with
  | none => simp
  | some nm =>
    by_cases hn : nm = ""
    · simp [hn]
    · cases token with
      | none => simp [hn]
      | some tk =>
        by_cases h1 : tk = ""
        · simp [hn, h1, ht.symm]
        · by_cases h2 : tk = m.token <;> simp [hn, h1, h2, ht]

theorem createModelInstance_refusal {m : Model F D}
    {ver3 logger iu name token resource loggingOn typ l}
    (h : createModelInstance m ver3 logger iu name token resource loggingOn true typ = (none, l)) :
    l = if logger then
      [.log .Error "error" (refusal (if ver3 then "instantiationToken" else "GUID") name token)]
      else [] := by
  unfold createModelInstance at h
  unfold refusal
  cases name with
  | none => cases h; simp
  | some nm =>
    by_cases hn : nm = ""
    · simp only [hn, if_true] at h; cases h; simp [hn]
    · cases token with
      | none => simp only [hn, if_false] at h; cases h; cases ver3 <;> simp [hn] <;> rfl
      | some tk =>
        by_cases h1 : tk = ""
        · simp only [hn, h1, if_true, if_false] at h; cases h; cases ver3 <;> simp [hn, h1] <;> rfl
        · by_cases h2 : tk = m.token
          · simp [hn, h2] at h
            rw [← h2] at h
            simp [h1] at h
          · simp only [hn, h1, h2, if_false, ne_eq, not_false_eq_true, if_true] at h
            cases h; cases ver3 <;> simp [hn, h1] <;> rfl

/-- What is known of a new instance: mode Instantiated, time 0, the start values of the model in an
otherwise zeroed instance, error logging on, event logging as asked for, no callback made. -/
structure Fresh (m : Model F D) (t : IType) (loggingOn : Bool) (c : Comp F D) : Prop where
  mode : c.ctx.state = .instantiated
  typ : c.ctx.typ = t
  time : c.ctx.time = Arith.lit 0
  logErrors : c.ctx.logErrors = true
  logEvents : c.ctx.logEvents = loggingOn
  values : ∃ ctx, c.mv = { m.setStartValues ctx (MV.zero m) with isDirtyValues := true }

theorem createModelInstance_fresh [HasInf F] {m : Model F D}
    {ver3 logger iu name token resource loggingOn mem typ c l}
    (h : createModelInstance m ver3 logger iu name token resource loggingOn mem typ = (some c, l)) :
    Fresh m typ loggingOn c ∧ l = [] := by
  have h' := h
  unfold createModelInstance at h
  simp only at h
  repeat' split at h
  all_goals first | (simp at h; done) | skip
  obtain ⟨h, rfl⟩ := Prod.mk.inj h
  cases h
  exact ⟨⟨rfl, rfl, rfl, rfl, rfl, _, rfl⟩, rfl⟩

theorem createModelInstance_oom {m : Model F D}
    {ver3 logger iu name token resource loggingOn typ} :
    (createModelInstance m ver3 logger iu name token resource loggingOn false typ).1 = none := by
  unfold createModelInstance
  simp only
  repeat' split
  all_goals first | rfl | simp_all

theorem RefFMU2.token_ne {m : Model F D} (h : RefFMU2 m) : m.token ≠ "" := by
  cases h <;> simp only [BouncingBall.model, Dahlquist.model, Feedthrough.model, Resource.model,
    Stair.model, VanDerPol.model] <;> decide
theorem RefFMU3.token_ne {m : Model F D} (h : RefFMU3 m) : m.token ≠ "" := by
  cases h <;> simp only [BouncingBall.model, Clocks.model, Dahlquist.model, Feedthrough.model,
    Resource.model, Roberts.model, Stair.model, StateSpace.model, VanDerPol.model] <;> decide

namespace FMI2
variable {m : Model F D}

/-- **C10**, FMI 2.0: instantiation succeeds (given memory) iff there is a name, the GUID is the
FMU's, and a logger callback was supplied. All FMI 2.0 Reference FMUs offer both interface types. -/
theorem C10_iff (hm : RefFMU2 m) {name t guid resource functions loggingOn} :
    (instantiate m name t guid resource functions loggingOn true).1.isSome ↔
      Named name ∧ guid = some m.token ∧ functions = some true := by
  unfold instantiate
  split
  · simp
  · simp
  · simpa using createModelInstance_iff hm.token_ne

/-- Otherwise the result is NULL, and if there is a logger it gets exactly one message, about the
first check that failed. -/
theorem C10_refused {name t guid resource loggingOn l}
    (h : instantiate m name t guid resource (some true) loggingOn true = (none, l)) :
    l = [.log .Error "error" (refusal "GUID" name guid)] := by
  simpa using createModelInstance_refusal h

/-- A new instance is fresh, and nothing was logged. -/
theorem C10_fresh [HasInf F] {name t guid resource functions loggingOn mem c l}
    (h : instantiate m name t guid resource functions loggingOn mem = (some c, l)) :
    Fresh m t loggingOn c ∧ l = [] := by
  unfold instantiate at h
  split at h
  · cases h
  · cases h
  · exact createModelInstance_fresh h

/-- Without memory the result is NULL. -/
theorem C10_oom {name t guid resource functions loggingOn} :
    (instantiate m name t guid resource functions loggingOn false).1 = none := by
  unfold instantiate
  split
  · rfl
  · rfl
  · exact createModelInstance_oom

/-- Non-vacuity. -/
example : (instantiate (Dahlquist.model : Model XRat _) (some "i") .coSimulation
    (some (Dahlquist.model : Model XRat _).token) none (some true) false true).1.isSome = true := by decide +kernel
example : instantiate (Dahlquist.model : Model XRat _) (some "i") .coSimulation (some "x") none
    (some true) false true = (none, [.log .Error "error" "Wrong GUID."]) := by decide +kernel

end FMI2

namespace FMI3
variable {m : Model F D}

/-- **C10**, FMI 3.0 Model Exchange: also, the FMU must offer Model Exchange. -/
theorem C10_me_iff (hm : RefFMU3 m) {name token resource loggingOn logger} :
    (instantiateModelExchange m name token resource loggingOn logger true).1.isSome ↔
      Named name ∧ token = some m.token ∧ m.modelExchange = true := by
  unfold instantiateModelExchange
  cases h : m.modelExchange
  · simp
  · simpa using createModelInstance_iff hm.token_ne

/-- Scheduled Execution. -/
theorem C10_se_iff (hm : RefFMU3 m) {name token resource loggingOn logger cu lo un} :
    (instantiateScheduledExecution m name token resource loggingOn logger cu lo un true).1.isSome ↔
      Named name ∧ token = some m.token ∧ m.scheduledExecution = true := by
  unfold instantiateScheduledExecution
  cases h : m.scheduledExecution
  · simp
  · simpa using createModelInstance_iff hm.token_ne

/-- Co-Simulation: Event Mode may only be requested from FMUs with events. Missing from the full
claim: that the FMU offers Co-Simulation is not checked (`C10_violated`). -/
theorem C10_cs_iff_partial (hm : RefFMU3 m) {name token resource loggingOn em er logger iu} :
    (instantiateCoSimulation m name token resource loggingOn em er logger iu true).1.isSome ↔
      Named name ∧ token = some m.token ∧ (em = true → m.eventUpdate.isSome) := by
  unfold instantiateCoSimulation
  cases h : m.eventUpdate <;> cases em <;>
    simp [createModelInstance_iff hm.token_ne]

/-- Which interface types the FMUs offer: Clocks Scheduled Execution, all others the other two. -/
theorem C10_offered (hm : RefFMU3 m) : m.modelExchange = !m.scheduledExecution := by
  cases hm <;> rfl

/-- The Clocks FMU offers only Scheduled Execution, but it can be instantiated for Co-Simulation. -/
theorem C10_violated : (Clocks.model : Model XRat _).scheduledExecution = true ∧
    (Clocks.model : Model XRat _).modelExchange = false ∧
    (instantiateCoSimulation (Clocks.model : Model XRat _) (some "i")
      (some (Clocks.model : Model XRat _).token) none false false false true false true).1.isSome := by
  decide +kernel

/-- What is logged when instantiation fails: one message about the first failing check if there is a
logger; nothing if the interface type is not offered. -/
theorem C10_me_refused {name token resource loggingOn logger l}
    (h : instantiateModelExchange m name token resource loggingOn logger true = (none, l)) :
    l = if m.modelExchange && logger then
      [.log .Error "error" (refusal "instantiationToken" name token)] else [] := by
  unfold instantiateModelExchange at h
  cases hm : m.modelExchange
  · simp [hm] at h; simp [← h]
  · simp only [hm, Bool.not_true, Bool.false_eq_true, if_false] at h
    simpa using createModelInstance_refusal h

theorem C10_se_refused {name token resource loggingOn logger cu lo un l}
    (h : instantiateScheduledExecution m name token resource loggingOn logger cu lo un true = (none, l)) :
    l = if m.scheduledExecution && logger then
      [.log .Error "error" (refusal "instantiationToken" name token)] else [] := by
  unfold instantiateScheduledExecution at h
  cases hm : m.scheduledExecution
  · simp [hm] at h; simp [← h]
  · simp only [hm, Bool.not_true, Bool.false_eq_true, if_false] at h
    have h1 := congrArg Prod.fst h
    have h2 := congrArg Prod.snd h
    simp only [Option.map_eq_none_iff] at h1 h2
    simpa using h2.symm.trans (createModelInstance_refusal (Prod.ext h1 rfl))

theorem C10_cs_refused {name token resource loggingOn em er logger iu l}
    (h : instantiateCoSimulation m name token resource loggingOn em er logger iu true = (none, l)) :
    l = if logger then [.log .Error "error" (if m.eventUpdate.isNone && em then
        "Event Mode is not supported." else refusal "instantiationToken" name token)] else [] := by
  unfold instantiateCoSimulation at h
  split at h
  · next he => cases h; simp [he]
  · next he =>
    have h1 := congrArg Prod.fst h
    have h2 := congrArg Prod.snd h
    simp only [Option.map_eq_none_iff] at h1 h2
    rw [if_neg he]
    simpa using h2.symm.trans (createModelInstance_refusal (Prod.ext h1 rfl))

/-- A new instance is fresh. -/
theorem C10_fresh [HasInf F] {t : IType} {c : Comp F D} (h : New m t c) :
    ∃ loggingOn, Fresh m t loggingOn c := by
  obtain ⟨_, _, _, _, _, loggingOn, _, c₀, _, _, _, _, _, _, e, rfl⟩ := h.created
  have := (createModelInstance_fresh e).1
  exact ⟨loggingOn, this.mode, this.typ, this.time, this.logErrors, this.logEvents, this.values⟩

/-- Non-vacuity. -/
example : (Ex.newME3 VanDerPol.model).isSome = true ∧ (Ex.newCS3 Stair.model true true).isSome = true ∧
    (Ex.newCS3 VanDerPol.model true true).isSome = false := by decide +kernel

end FMI3
end Verif
