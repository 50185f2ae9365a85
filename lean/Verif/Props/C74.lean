import Verif.Props.C73

/-!
# C74: the field `status` of an importer instance

The importer instance has a field `status` that the wrapper functions keep up to date. It should be the worst status that a
function called through this instance has returned, so that a user can look at it once at the end.
-/

namespace Verif.Importer
open Verif Verif.Importer.Lifecycle Verif.Spec.Lifecycle

/-- `st` is the worst of the statuses in `l`. -/
def IsWorst (st : Status) (l : List Status) : Prop := st ∈ l ∧ ∀ x ∈ l, x.rank ≤ st.rank

/-- The wrapper functions that do not keep the field up to date. -/
def C74_forgetful : List String :=
  ["SetDebugLogging", "GetBinary", "GetClock", "SetBinary", "SetClock", "SerializedFMUStateSize",
   "UpdateDiscreteStates", "CompletedIntegratorStep", "SetContinuousStates", "GetContinuousStateDerivatives",
   "GetEventIndicators", "GetContinuousStates", "GetNominalsOfContinuousStates", "DoStep"]

private theorem call_status {env : Env} {s s' : Sys} {i i' : Inst} {v : Version} {f : String} {st : Status}
    (e : Lifecycle.call env s i v f = .ret ((s', i'), st)) :
    i'.status = (if recorded v f && !inquiry f then worse st i.status else i.status) := by
  unfold Lifecycle.call at e
  split at e
  · split at e
    · rename_i hq
      obtain ⟨_, _, e⟩ := Outcome.bind_eq_ret.1 e
      cases e
      simp [hq]
    · rename_i hq
      split at e
      · cases e
      · split at e
        · obtain ⟨_, _, e⟩ := Outcome.bind_eq_ret.1 e
          cases e
          cases hr : recorded v f <;> simp [hq]
        · cases e
  · cases e

private theorem worse_isWorst (a b : Status) : IsWorst (worse a b) [b, a] := by
  unfold IsWorst; cases a <;> cases b <;> decide +kernel

/-- C74, for FMI 3.0 and every state and behaviour of the FMU: the field never gets better, it is a status that was
returned (or the one it had), and if only functions are called that are not in `C74_forgetful`, it is the
worst of them. Missing: the functions in `C74_forgetful`, and FMI 2.0. -/
theorem C74_partial (env : Env) : ∀ (fs : List String) (s : Sys) (i : Inst) {s' : Sys} {i' : Inst} {sts : List Status},
    callAll env .fmi3 s i fs = .ret ((s', i'), sts) →
    i.status.rank ≤ i'.status.rank ∧ i'.status ∈ i.status :: sts ∧
    ((∀ f ∈ fs, f ∉ C74_forgetful) → IsWorst i'.status (i.status :: sts))
  | [], s, i, s', i', sts, e => by
    cases e
    exact ⟨Nat.le_refl _, List.mem_cons_self, fun _ => ⟨List.mem_cons_self, by simp⟩⟩
  | f :: fs, s, i, s', i', sts, e => by
    unfold callAll at e
    obtain ⟨⟨⟨s1, i1⟩, st⟩, e1, e⟩ := Outcome.bind_eq_ret.1 e
    obtain ⟨⟨x, l⟩, e2, e⟩ := Outcome.bind_eq_ret.1 e
    cases e
    obtain ⟨h1, h2, h3⟩ := C74_partial env fs s1 i1 e2
    have hs := call_status e1
    obtain ⟨w1, w2⟩ := worse_isWorst st i.status
    have hst : i1.status ∈ [i.status, st] := by
      rw [hs]
      split
      · exact w1
      · exact List.mem_cons_self
    have hle : i.status.rank ≤ i1.status.rank := by
      rw [hs]
      split
      · exact w2 _ List.mem_cons_self
      · exact Nat.le_refl _
    have hmem : i'.status ∈ i.status :: st :: l := by
      simp only [List.mem_cons, List.not_mem_nil, or_false] at h2 hst ⊢
      rcases h2 with h2 | h2
      · rw [h2]
        rcases hst with h | h <;> simp [h]
      · exact .inr (.inr h2)
    refine ⟨Nat.le_trans hle h1, hmem, fun hf => ⟨hmem, ?_⟩⟩
    obtain ⟨-, h4⟩ := h3 fun g hg => hf g (List.mem_cons_of_mem _ hg)
    have hst1 : st.rank ≤ i1.status.rank := by
      have hf1 := hf f List.mem_cons_self
      cases hr : recorded .fmi3 f && !inquiry f with
      | true =>
        rw [hs, hr]
        exact w2 _ (by simp)
      | false =>
        have hq : inquiry f = true := by
          cases hq : inquiry f with
          | true => rfl
          | false =>
            exfalso
            simp only [hq, Bool.not_false, Bool.and_true, recorded, Bool.not_eq_false', decide_eq_true_eq] at hr
            rcases List.mem_cons.1 hr with rfl | hr
            · simp [inquiry] at hq
            · exact hf1 hr
        have : st = .OK := by
          unfold Lifecycle.call at e1
          rw [hq] at e1
          split at e1
          · simp only [if_true] at e1
            obtain ⟨_, _, e1⟩ := Outcome.bind_eq_ret.1 e1
            cases e1
            rfl
          · cases e1
        subst this
        exact Nat.zero_le _
    intro x hx
    simp only [List.mem_cons] at hx
    rcases hx with rfl | rfl | hx
    · exact Nat.le_trans hle h1
    · exact Nat.le_trans hst1 h1
    · exact h4 x (List.mem_cons_of_mem _ hx)

/-- The functions in `C74_forgetful`, among them `FMI3DoStep`, never change the field, whatever status they return. -/
theorem C74_violated_fmi3 (env : Env) {s s' : Sys} {i i' : Inst} {f : String} {st : Status} (hf : f ∈ C74_forgetful)
    (e : Lifecycle.call env s i .fmi3 f = .ret ((s', i'), st)) : i'.status = i.status := by
  have h : ∀ f ∈ C74_forgetful, recorded .fmi3 f = false := by decide +kernel
  rw [call_status e, h f hf]
  rfl

/-- The wrapper functions of FMI 2.0 never change the field. -/
theorem C74_violated_fmi2 (env : Env) : ∀ (fs : List String) {s s' : Sys} {i i' : Inst} {sts : List Status},
    callAll env .fmi2 s i fs = .ret ((s', i'), sts) → i'.status = i.status
  | [], s, s', i, i', sts, e => by cases e; rfl
  | f :: fs, s, s', i, i', sts, e => by
    unfold callAll at e
    obtain ⟨⟨⟨s1, i1⟩, st⟩, e1, e⟩ := Outcome.bind_eq_ret.1 e
    obtain ⟨⟨x, l⟩, e2, e⟩ := Outcome.bind_eq_ret.1 e
    cases e
    rw [C74_violated_fmi2 env fs e2, call_status e1]
    rfl

/-- An FMU whose second call returns a warning and whose fourth call returns an error. -/
def C74_env : Env := { C73_fine with status := fun k => if k = 1 then .Warning else if k = 3 then .Error else .OK }

/-- An instance that is instantiated. -/
private def inst : Inst :=
  ⟨0, some 1, some 2, none, some (3, symbols3), some (0, fun _ => true), some 0, true, true, .OK⟩

private def sys : Sys := ⟨⟨4, fun a => a < 4⟩, ⟨1, fun a => a < 1⟩, ⟨1, fun a => a < 1⟩, 4, 1, 1, 0⟩

/-- Concrete case for `C74_partial`: the error of the fourth call is in the field at the end. -/
example : ∃ s i, callAll C74_env .fmi3 sys inst ["EnterInitializationMode", "SetFloat64", "ExitInitializationMode",
      "GetFloat64", "Terminate"] = .ret ((s, i), [.OK, .Warning, .OK, .Error, .OK]) ∧ i.status = .Error := by
  refine ⟨_, _, by with_unfolding_all rfl, rfl⟩

/-- Concrete case for `C74_violated_fmi3`: `FMI3DoStep` returns an error, and the field says OK or Warning. -/
example : ∃ s i, callAll C74_env .fmi3 sys inst ["EnterInitializationMode", "SetFloat64", "ExitInitializationMode",
      "DoStep", "GetFloat64"] = .ret ((s, i), [.OK, .Warning, .OK, .Error, .OK]) ∧ i.status = .Warning := by
  refine ⟨_, _, by with_unfolding_all rfl, rfl⟩

end Verif.Importer
