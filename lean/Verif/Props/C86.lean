import Verif.Spec.Tokens
import Verif.Props.C10

/-!
# C86: an FMU refuses the instantiation token of another FMU

The instantiation token (FMI 2.0: GUID) lets a library check that it is used with its own model description. The full statement is false: Stair and VanDerPol have the same token
(`C86_violated`). It is proved for all other pairs.
-/

namespace Verif
variable {F D : Type} [Arith F]

namespace FMI2

theorem Library.ref {n : String} {m : Model F D} (h : Library n m) : RefFMU2 m ∧ (n, m.token) ∈ guids := by
  cases h <;> exact ⟨by constructor, by simp only [BouncingBall.model, Dahlquist.model, Feedthrough.model, Resource.model, Stair.model, VanDerPol.model]; decide +kernel⟩

theorem guids_distinct : ∀ x ∈ guids, ∀ y ∈ guids, x.1 ≠ y.1 → ¬(x.1 ∈ ["Stair", "VanDerPol"] ∧ y.1 ∈ ["Stair", "VanDerPol"]) → x.2 ≠ y.2 := by decide +kernel

/-- **C86 for FMI 2.0, partial.** `fmi2Instantiate` of an FMU gives NULL for the GUID in the model description of another FMU, whatever the other arguments. Missing: Stair and VanDerPol with
the GUIDs of each other, for which it is false. -/
theorem C86_partial {n n' guid : String} {m : Model F D} (h : Library n m) (h' : (n', guid) ∈ guids) (hn : n ≠ n')
    (hs : ¬(n ∈ ["Stair", "VanDerPol"] ∧ n' ∈ ["Stair", "VanDerPol"])) (name t resource functions loggingOn mem) :
    (instantiate m name t (some guid) resource functions loggingOn mem).1 = none := by
  have hne := guids_distinct _ h.ref.2 _ h' hn hs
  cases mem with
  | false => exact C10_oom
  | true =>
    have := mt (C10_iff h.ref.1 (name := name) (t := t) (guid := some guid) (resource := resource) (functions := functions) (loggingOn := loggingOn)).1
      (fun x => hne (Option.some.inj x.2.1).symm)
    exact Option.not_isSome_iff_eq_none.1 this

/-- The library of BouncingBall with the model description of Dahlquist. -/
example : Library "BouncingBall" (BouncingBall.model : Model XRat _) ∧ ("Dahlquist", "{221063D2-EF4A-45FE-B954-B5BFEEA9A59B}") ∈ guids := ⟨.bouncingBall, by decide +kernel⟩

/-- **C86 is violated**: the library of Stair accepts the GUID of VanDerPol, and the other way round. -/
theorem C86_violated {name : Option String} (hn : Named name) (t resource loggingOn) : ∃ guid, ("VanDerPol", guid) ∈ guids ∧ ("Stair", guid) ∈ guids ∧
    (instantiate (Stair.model : Model F _) name t (some guid) resource (some true) loggingOn true).1.isSome ∧
    (instantiate (VanDerPol.model : Model F _) name t (some guid) resource (some true) loggingOn true).1.isSome :=
  ⟨"{BD403596-3166-4232-ABC2-132BDF73E644}", by decide +kernel, by decide +kernel, (C10_iff .stair).2 ⟨hn, rfl, rfl⟩, (C10_iff .vanDerPol).2 ⟨hn, rfl, rfl⟩⟩

end FMI2

namespace FMI3

theorem Library.ref {n : String} {m : Model F D} (h : Library n m) : RefFMU3 m ∧ (n, m.token) ∈ descriptions.map fun x => (x.1, x.2.token) := by
  cases h <;> exact ⟨by constructor, by
    simp only [BouncingBall.model, Clocks.model, Dahlquist.model, Feedthrough.model, Resource.model, Roberts.model, Stair.model, StateSpace.model, VanDerPol.model]; decide +kernel⟩

theorem tokens_distinct : ∀ x ∈ descriptions.map fun x => (x.1, x.2.token), ∀ y ∈ descriptions.map fun x => (x.1, x.2.token), x.1 ≠ y.1 →
    ¬(x.1 ∈ ["Stair", "VanDerPol"] ∧ y.1 ∈ ["Stair", "VanDerPol"]) → x.2 ≠ y.2 := by decide +kernel

/-- **C86 for FMI 3.0, partial.** The three functions that instantiate an FMU give NULL for the instantiation token in the model description of another FMU, whatever the other arguments.
Missing: Stair and VanDerPol with the tokens of each other, for which it is false. -/
theorem C86_partial {n n' : String} {m : Model F D} {d' : Description3} (h : Library n m) (h' : (n', d') ∈ descriptions) (hn : n ≠ n')
    (hs : ¬(n ∈ ["Stair", "VanDerPol"] ∧ n' ∈ ["Stair", "VanDerPol"])) (name resource loggingOn logger) :
    (instantiateModelExchange m name (some d'.token) resource loggingOn logger true).1 = none ∧
    (∀ em er iu, (instantiateCoSimulation m name (some d'.token) resource loggingOn em er logger iu true).1 = none) ∧
    ∀ cu lo un, (instantiateScheduledExecution m name (some d'.token) resource loggingOn logger cu lo un true).1 = none := by
  have hne := tokens_distinct _ h.ref.2 _ (List.mem_map.2 ⟨_, h', rfl⟩) hn hs
  have key : ∀ {iu typ}, (createModelInstance m true logger iu name (some d'.token) resource loggingOn true typ).1 = none := by
    intro iu typ
    have := mt (createModelInstance_iff h.ref.1.token_ne (ver3 := true) (logger := logger) (iu := iu) (name := name) (token := some d'.token) (resource := resource)
      (loggingOn := loggingOn) (typ := typ)).1 (fun x => hne (Option.some.inj x.2).symm)
    exact Option.not_isSome_iff_eq_none.1 this
  refine ⟨?_, fun em er iu => ?_, fun cu lo un => ?_⟩
  · unfold instantiateModelExchange
    split
    · rfl
    · exact key
  · unfold instantiateCoSimulation
    split
    · rfl
    · simp only [key, Option.map_none]
  · unfold instantiateScheduledExecution
    split
    · rfl
    · simp only [key, Option.map_none]

/-- The library of Roberts with the model description of BouncingBall; the two tokens differ only in the last digit. -/
example : Library "Roberts" (Roberts.model : Model XRat _) ∧ ("BouncingBall", Description3.bouncingBall) ∈ descriptions := ⟨.roberts, by simp [descriptions]⟩

/-- **C86 is violated**: the library of Stair accepts the token of VanDerPol, and the other way round. -/
theorem C86_violated {name : Option String} (hn : Named name) (resource loggingOn logger) :
    (instantiateModelExchange (Stair.model : Model F _) name (some Description3.vanDerPol.token) resource loggingOn logger true).1.isSome ∧
    (instantiateModelExchange (VanDerPol.model : Model F _) name (some Description3.stair.token) resource loggingOn logger true).1.isSome :=
  ⟨(C10_me_iff .stair).2 ⟨hn, rfl, rfl⟩, (C10_me_iff .vanDerPol).2 ⟨hn, rfl, rfl⟩⟩

example : Named (some "instance1") := ⟨_, rfl, by decide⟩

end FMI3
end Verif
