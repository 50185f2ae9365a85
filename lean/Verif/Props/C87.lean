import Verif.Importer.ImportLibrary
import Verif.Models.VanDerPol
import Verif.Models.BouncingBall
import Verif.Props.C86

/-!
# C87: the programs that show how to import an FMU release what they acquire, and their status tells whether the FMU was instantiated

The full statement is false: import_shared_library.c leaves the library open when it fails (`C87_violated_open`), and import_static_library.c tests a pointer that it has freed
(`C87_violated_status`).
-/

namespace Verif.Importer.ImportLibrary
open Verif

/-- Nothing is used or released that was not acquired before, and everything is released at the end; the argument tells what is held (the library, the instance). -/
def Balanced : Bool → Bool → List Effect → Prop
  | l, i, [] => l = false ∧ i = false
  | l, i, .opened :: es => l = false ∧ Balanced true i es
  | l, i, .instantiated :: es => i = false ∧ Balanced l true es
  | l, i, .freed :: es => i = true ∧ Balanced l false es
  | l, i, .closed :: es => l = true ∧ i = false ∧ Balanced false i es

variable {F D : Type} [Arith F]

theorem instantiate_iff {m : Model F D} (hm : RefFMU3 m) {mem : Bool} : instantiate m mem = true ↔ m.token = token ∧ m.modelExchange = true ∧ mem = true := by
  cases mem with
  | false =>
    have : (FMI3.instantiateModelExchange m (some "instance1") (some token) none false true false).1 = none := by
      unfold FMI3.instantiateModelExchange
      split
      · rfl
      · exact createModelInstance_oom
    simp [instantiate, this]
  | true =>
    unfold instantiate
    rw [FMI3.C10_me_iff hm]
    exact ⟨fun h => ⟨(Option.some.inj h.2.1).symm, h.2.2, rfl⟩, fun h => ⟨⟨_, rfl, by decide⟩, by rw [h.1], h.2.1⟩⟩

theorem accepted {n : String} {m : Model F D} (h : FMI3.Library n m) (hn : n = "VanDerPol" ∨ n = "Stair") : m.token = token ∧ m.modelExchange = true := by
  cases h <;> first | exact ⟨rfl, rfl⟩ | (exfalso; revert hn; decide)

/-- **C87, shared library, partial.** Whatever Reference FMU is in the place of VanDerPol, whatever it exports and whether or not there is memory: the program reports success exactly if the library
can be opened, has the two functions, is the one of VanDerPol or Stair (which have the same token) and there is memory. Then everything is released in the right order. In any case no instance is left and nothing is
used that was not acquired. Missing: on failure the library stays open. -/
theorem C87_shared_partial (library : Option (Library F D)) (hl : ∀ l, library = some l → ∃ n, FMI3.Library n l.model) (mem : Bool) :
    ((sharedLibrary library mem).2 = true ↔ ∃ l, library = some l ∧ l.exports "fmi3InstantiateModelExchange" = true ∧ l.exports "fmi3FreeInstance" = true ∧
      (FMI3.Library "VanDerPol" l.model ∨ FMI3.Library "Stair" l.model) ∧ mem = true) ∧
    ((sharedLibrary library mem).2 = true → Balanced false false (sharedLibrary library mem).1) ∧
    ((sharedLibrary library mem).2 = false → Effect.instantiated ∉ (sharedLibrary library mem).1 ∧ Effect.freed ∉ (sharedLibrary library mem).1 ∧ Effect.closed ∉ (sharedLibrary library mem).1) := by
  cases library with
  | none => simp [sharedLibrary]
  | some l =>
    obtain ⟨n, hn⟩ := hl l rfl
    have ht : (m : Bool) → (instantiate l.model m = true ↔ (FMI3.Library "VanDerPol" l.model ∨ FMI3.Library "Stair" l.model) ∧ m = true) := by
      intro m
      rw [instantiate_iff hn.ref.1]
      constructor
      · rintro ⟨h1, h2, h3⟩
        refine ⟨?_, h3⟩
        obtain ⟨ex, mo⟩ := l
        simp only at hn h1 h2 ⊢
        cases hn with
        | vanDerPol => exact .inl .vanDerPol
        | stair => exact .inr .stair
        | bouncingBall => exact absurd h1 (by simp only [BouncingBall.model, token]; decide)
        | clocks => exact absurd h1 (by simp only [Clocks.model, token]; decide)
        | dahlquist => exact absurd h1 (by simp only [Dahlquist.model, token]; decide)
        | feedthrough => exact absurd h1 (by simp only [Feedthrough.model, token]; decide)
        | resource => exact absurd h1 (by simp only [Resource.model, token]; decide)
        | roberts => exact absurd h1 (by simp only [Roberts.model, token]; decide)
        | stateSpace => exact absurd h1 (by simp only [StateSpace.model, token]; decide)
      · rintro ⟨h, rfl⟩
        obtain ⟨e1, e2⟩ := h.elim (accepted · (.inl rfl)) (accepted · (.inr rfl))
        exact ⟨e1, e2, rfl⟩
    cases h1 : l.exports "fmi3InstantiateModelExchange"
    · simp [sharedLibrary, h1]
    · cases h2 : l.exports "fmi3FreeInstance"
      · simp [sharedLibrary, h1, h2]
      · cases h3 : instantiate l.model mem
        · have := mt (ht mem).2 (by simp [h3])
          simp [sharedLibrary, h1, h2, h3]
          intro a
          cases mem
          · rfl
          · exact absurd ⟨a, rfl⟩ this
        · have := (ht mem).1 h3
          have e : sharedLibrary (some l) mem = ([.opened, .instantiated, .freed, .closed], true) := by simp [sharedLibrary, h1, h2, h3]
          rw [e]
          simp [Balanced, h1, h2, this.1, this.2]

/-- The library of VanDerPol, with memory. -/
example : FMI3.Library "VanDerPol" (VanDerPol.model : Model XRat _) ∧ sharedLibrary (some ⟨fun _ => true, (VanDerPol.model : Model XRat _)⟩) true = ([.opened, .instantiated, .freed, .closed], true) :=
  ⟨.vanDerPol, by decide +kernel⟩

/-- **C87 is violated**: if the library does not export `fmi3FreeInstance`, it stays open. -/
theorem C87_violated_open (m : Model F D) (mem : Bool) :
    ¬ Balanced false false (sharedLibrary (some ⟨fun s => s != "fmi3FreeInstance", m⟩) mem).1 := by
  simp [sharedLibrary, Balanced]

/-- **C87, static library, partial.** The instance is freed if there was one. If the value of a pointer survives `free`, the program reports success exactly if there is memory. Missing: C does not
promise that it does. -/
theorem C87_static_partial (mem test : Bool) :
    Balanced false false (staticLibrary (VanDerPol.model : Model F _) mem test).1 ∧ ((staticLibrary (VanDerPol.model : Model F _) mem true).2 = true ↔ mem = true) := by
  have := instantiate_iff (F := F) RefFMU3.vanDerPol (mem := mem)
  cases mem with
  | true =>
    have h : instantiate (VanDerPol.model : Model F _) true = true := this.2 ⟨rfl, rfl, rfl⟩
    simp [staticLibrary, h, Balanced]
  | false =>
    have h : instantiate (VanDerPol.model : Model F _) false = false := by simpa using mt this.1 (by simp)
    simp [staticLibrary, h, Balanced]

example : staticLibrary (VanDerPol.model : Model XRat _) true true = ([.instantiated, .freed], true) := by decide +kernel

/-- **C87 is violated**: the pointer is tested after its block was freed, when its value is indeterminate; the program may report a failure although everything succeeded. -/
theorem C87_violated_status : (staticLibrary (VanDerPol.model : Model F _) true false) = ([.instantiated, .freed], false) := by
  have h : instantiate (VanDerPol.model : Model F _) true = true := (instantiate_iff RefFMU3.vanDerPol).2 ⟨rfl, rfl, rfl⟩
  simp [staticLibrary, h]

end Verif.Importer.ImportLibrary
