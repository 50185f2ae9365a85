import Verif.Lemmas.Lifecycle

/-!
# C73: an importer instance is safe to use and leaves nothing behind

For every order of loading, instantiating, calling and freeing that the specification allows, and
for every behaviour of the operating system and the FMU, nothing undefined happens, every function of the
FMU can be called through its wrapper and its status is returned, and freeing the importer instance gives back
all memory and the library.
-/

namespace Verif.Importer
open Verif Verif.Importer.Lifecycle Verif.Spec.Lifecycle

/-- What works: not the functions that are never loaded, not those whose logging is wrong if calls
are logged, and Model Exchange of FMI 3.0 only if nothing is missing in the library and memory suffices. -/
def Careful (env : Env) (logFunctionCall : Bool) : Op → Prop
  | .instantiate .fmi3 .modelExchange => Complete env .fmi3 .modelExchange ∧ ∀ k, env.alloc k = true
  | .call _ f => f ∉ ["SetShiftDecimal", "SetShiftFraction"] ∧
      (logFunctionCall = true → f ∉ ["SetDebugLogging", "GetIntervalFraction", "GetNumberOfEventIndicators",
        "GetNumberOfContinuousStates"])
  | _ => True

private theorem careful_mem {v : Version} {t : IType} {f : String} (hf : f ∈ functions v t)
    (h : f ∉ ["SetShiftDecimal", "SetShiftFraction"]) : f ∈ names v t := by
  have : ∀ f ∈ functions v t, f ∉ ["SetShiftDecimal", "SetShiftFraction"] → f ∈ names v t := by
    cases v <;> cases t <;> decide +kernel
  exact this f hf h

private theorem careful_text {v : Version} {t : IType} {f : String} (hf : f ∈ functions v t)
    (h : f ∉ ["SetDebugLogging", "GetIntervalFraction", "GetNumberOfEventIndicators", "GetNumberOfContinuousStates"]) :
    text v f ≠ .mismatch := by
  have : ∀ f ∈ functions v t, f ∉ ["SetDebugLogging", "GetIntervalFraction", "GetNumberOfEventIndicators",
      "GetNumberOfContinuousStates"] → text v f ≠ .mismatch := by
    cases v <;> cases t <;> decide +kernel
  exact this f hf h

private theorem step_inv {env : Env} {s₀ s : Sys} {l : Bool} {ph : Phase} {i : Inst} {op : Op}
    (h : Inv env s₀ l ph s i) (ha : ph.allows op) (hu : Careful env l op) :
    ∃ s' i' st, step env s i op = .ret ((s', i'), st) ∧ Inv env s₀ l (ph.next op st) s' i' := by
  unfold step
  rw [if_pos h.alive]
  cases ph <;> cases op <;> try exact ha.elim
  · exact ⟨_, _, _, rfl, h.load⟩
  · rename_i v t
    obtain ⟨s', i', st, e, h', -⟩ := h.instantiate v t (fun e1 e2 => by subst e1 e2; exact hu)
    exact ⟨s', i', st, e, h'⟩
  · rename_i v t w f
    obtain ⟨rfl, hf⟩ := ha
    obtain ⟨s', i', e, h', -⟩ := h.call (careful_mem hf hu.1) fun hl => careful_text hf (hu.2 hl)
    exact ⟨s', i', _, e, h'⟩
  · rename_i v t w
    obtain rfl : w = v := ha
    obtain ⟨s', i', e, h'⟩ := h.destroy
    exact ⟨s', i', _, e, h'⟩

private theorem run_inv {env : Env} {s₀ s : Sys} {l : Bool} {ph : Phase} {i : Inst} (hv : Valid s₀)
    (hl : l = true → ∀ k, env.alloc k = true)
    (h : Run env s₀ true l (Careful env l) ph s i) : Inv env s₀ l ph s i := by
  induction h with
  | create e => exact Inv.create hv hl e
  | step _ ha hu e ih =>
    obtain ⟨s', i', st, e', h'⟩ := step_inv ih ha hu
    rw [e'] at e
    cases e
    exact h'

/-- C73, for every environment: in every state of proper use with operations that are `Careful`, of an instance
that was created with a function for messages, nothing goes wrong. If calls are logged,
allocations are assumed to succeed. The full statement, `C73_full`, is without these restrictions. -/
theorem C73_partial (env : Env) (s₀ : Sys) (hv : Valid s₀) (l : Bool) (hl : l = true → ∀ k, env.alloc k = true)
    {ph : Phase} {s : Sys} {i : Inst} (h : Run env s₀ true l (Careful env l) ph s i) :
    Safe env s₀ (Careful env l) ph s i := by
  have hi := run_inv hv hl h
  refine ⟨fun op ha hu => ?_, fun v f ha hu h1 h2 => ?_, hi.safe_free⟩
  · obtain ⟨s', i', st, e, -⟩ := step_inv hi ha hu
    exact ⟨_, e⟩
  · unfold step
    rw [if_pos hi.alive]
    cases ph <;> try exact ha.elim
    obtain ⟨rfl, hf⟩ := ha
    obtain ⟨s', i', e, -, hc⟩ := hi.call (careful_mem hf hu.1) fun hl => careful_text hf (hu.2 hl)
    have hq : inquiry f = false := by simp [inquiry, h1, h2]
    rw [hq] at e hc
    exact ⟨s', i', e, hc⟩

/-- The full statement of C73. -/
def C73_full : Prop :=
  ∀ (env : Env) (s₀ : Sys) (m l : Bool) (ph : Phase) (s : Sys) (i : Inst), Valid s₀ →
    Run env s₀ m l (fun _ => True) ph s i → Safe env s₀ (fun _ => True) ph s i

/-- The example programs: if memory suffices and the library can be opened and has all functions, a program with
any calls of functions that are `Careful` ends, with all memory given back and the library closed, and
no instance is left in the FMU unless the FMU has reported a fatal error. The FMU may refuse the instantiation and
return any status. -/
theorem C73_program_partial (env : Env) (s₀ : Sys) (hv : Valid s₀) (v : Version) (t : IType)
    (hal : ∀ k, env.alloc k = true) (hlib : (env.dlopen s₀.opens).isSome) (hC : Complete env v t)
    (fs : List String) (hfs : ∀ f ∈ fs, f ∈ functions v t ∧ Careful env true (.call v f)) :
    ∃ s' st, program env s₀ v t fs = .ret (s', st) ∧ SameResources s₀ s' ∧
      (st.rank < Status.Fatal.rank → SameComponents s₀ s') := by
  unfold program setUp
  obtain ⟨i, s, e⟩ : ∃ i s, FMICreateInstance env s₀ true true true = .ret (some i, s) ∧ s.opens = s₀.opens := by
    simp only [FMICreateInstance, calloc, hal, if_true]
    exact ⟨_, _, rfl, rfl⟩
  obtain ⟨e, eo⟩ := e
  have h0 := Inv.create hv (fun _ => hal) e
  rw [e, Outcome.ret_bind]
  have h1 := h0.load
  obtain ⟨ex, hex⟩ := Option.isSome_iff_exists.1 hlib
  rw [← eo] at hex
  unfold FMILoadPlatformBinary at h1 ⊢
  simp only [hex] at h1 ⊢
  simp only [Outcome.ret_bind, if_true]
  obtain ⟨s2, i2, st2, e2, h2, hr⟩ := Inv.instantiate (i := _) h1 v t (fun e1 e2 => by subst e1 e2; exact ⟨hC, hal⟩)
  simp only [e2, Outcome.ret_bind]
  rcases hr hC hal with rfl | hr
  · have hf : ∀ f ∈ fs, f ∈ names v t ∧ (true = true → text v f ≠ .mismatch) := fun f hf =>
      ⟨careful_mem (hfs f hf).1 (hfs f hf).2.1, fun h => careful_text (hfs f hf).1 ((hfs f hf).2.2 h)⟩
    obtain ⟨s3, i3, st3, e3, h3⟩ := Inv.calls fs s2 i2 h2 hf
    rw [if_pos rfl, e3, Outcome.ret_bind]
    exact h3.tearDown st3
  · obtain rfl := hr.1
    rw [if_neg (by decide)]
    obtain ⟨s3, e3, hr', hc⟩ := Inv.tearDown_refused (t := t) h2 hr
    exact ⟨s3, _, e3, hr', fun _ => hc⟩

/-- `FMI3SetShiftDecimal` and `FMI3SetShiftFraction` call a function pointer that is NULL, in every state in which
they are allowed. -/
theorem C73_violated_shift (env : Env) (s₀ : Sys) (hv : Valid s₀) (l : Bool)
    (hl : l = true → ∀ k, env.alloc k = true) {t : IType} {s : Sys} {i : Inst}
    (h : Run env s₀ true l (Careful env l) (.instantiated .fmi3 t) s i) :
    ∀ f ∈ ["SetShiftDecimal", "SetShiftFraction"],
      (Phase.instantiated .fmi3 t).allows (.call .fmi3 f) ∧ step env s i (.call .fmi3 f) = .ub := by
  intro f hf
  have hi := run_inv hv hl h
  have h1 : ∀ f ∈ ["SetShiftDecimal", "SetShiftFraction"], f ∈ functions3 ∧ f ∉ symbols3 := by decide +kernel
  obtain ⟨ha, hn⟩ := h1 f hf
  refine ⟨⟨rfl, ha⟩, ?_⟩
  obtain ⟨⟨b, hb⟩, hl, -⟩ := hi.known
  obtain ⟨⟨a, e⟩, hl⟩ := Option.isSome_iff_exists.1 hl
  have hc : callable s i .fmi3 f = false := by
    simp only [callable, hb, hl, names, hn, decide_false, Bool.and_false, Bool.false_and]
  unfold step Lifecycle.call
  rw [if_pos hi.alive]
  simp only [hc, Bool.false_eq_true, if_false]

/-- If calls are logged, `FMI2SetDebugLogging` and `FMI3SetDebugLogging` print with a format without the arguments, in
every state in which they are allowed. -/
theorem C73_violated_debugLogging (env : Env) (s₀ : Sys) (hv : Valid s₀) (hal : ∀ k, env.alloc k = true)
    {v : Version} {t : IType} {s : Sys} {i : Inst}
    (h : Run env s₀ true true (Careful env true) (.instantiated v t) s i) :
    (Phase.instantiated v t).allows (.call v "SetDebugLogging") ∧
      step env s i (.call v "SetDebugLogging") = .ub := by
  have hi := run_inv hv (fun _ => hal) h
  have h1 : "SetDebugLogging" ∈ functions v t ∧ "SetDebugLogging" ∈ names v t ∧
      text v "SetDebugLogging" = .mismatch ∧ inquiry "SetDebugLogging" = false := by
    cases v <;> cases t <;> decide +kernel
  refine ⟨⟨rfl, h1.1⟩, ?_⟩
  obtain ⟨-, -, hc⟩ := hi.known
  obtain ⟨c, hc⟩ := Option.isSome_iff_exists.1 hc
  have hcl := hi.comp.of_mem (a := c) (by simp [held, hc])
  unfold step Lifecycle.call
  rw [if_pos hi.alive]
  simp only [hi.callable h1.2.1, if_true, h1.2.2.2, Bool.false_eq_true, if_false, hc, hcl, logCall, hi.log, h1.2.2.1,
    Outcome.ub_bind]

/-- If the library has no `fmi3GetVersion`, `FMI3InstantiateModelExchange` calls a function pointer that is NULL, because it
does not look at the status of `loadSymbols3`. -/
theorem C73_violated_modelExchange (env : Env) (s₀ : Sys) (hv : Valid s₀) (l : Bool)
    (hl : l = true → ∀ k, env.alloc k = true) {s : Sys} {i : Inst}
    (h : Run env s₀ true l (Careful env l) .loaded s i) {a : Nat} {exports : String → Bool}
    (hi : i.library = some (a, exports)) (he : exports "fmi3GetVersion" = false) :
    Phase.loaded.allows (.instantiate .fmi3 .modelExchange) ∧
      step env s i (.instantiate .fmi3 .modelExchange) = .ub := by
  refine ⟨(nomatch ·), ?_⟩
  have hv := run_inv hv hl h
  have ha := hv.lib.of_mem (a := a) (by simp [opened, hi])
  have ht : symbols3.takeWhile (fun f => exports (Version.fmi3.pre ++ f)) = [] := by
    have he' : exports (Version.fmi3.pre ++ "GetVersion") = false := he
    simp only [symbols3]
    rw [List.takeWhile_cons_of_neg (by rw [he']; decide)]
  unfold step
  rw [if_pos hv.alive]
  unfold Lifecycle.instantiate FMI3InstantiateModelExchange loadSymbols3 calloc
  cases env.alloc s.allocs with
  | false => rfl
  | true =>
    simp only [if_true, loadSymbols, hi, ha, ht, hv.message]
    rw [if_neg (by decide)]
    rfl

/-- If the library cannot be opened, the example programs call `FreeInstance` through a table that is NULL. -/
theorem C73_violated_setUp (env : Env) (s₀ : Sys) (v : Version) (t : IType) (fs : List String)
    (hal : env.alloc s₀.allocs = true) (hlib : env.dlopen s₀.opens = none) :
    program env s₀ v t fs = .ub := by
  unfold program setUp FMICreateInstance calloc
  simp only [hal, if_true]
  cases a2 : env.alloc (s₀.allocs + 1) <;> simp only [if_true, Bool.false_eq_true, if_false] <;>
    cases a3 : env.alloc (s₀.allocs + 1 + 1) <;> simp only [if_true, Bool.false_eq_true, if_false] <;>
    simp only [Outcome.ret_bind, FMILoadPlatformBinary, hlib] <;>
    cases v <;> rfl

/-- A system without anything in use. -/
def C73_empty : Sys := ⟨⟨0, fun _ => false⟩, ⟨0, fun _ => false⟩, ⟨0, fun _ => false⟩, 0, 0, 0, 0⟩

/-- Everything succeeds, and every library exports everything. -/
def C73_fine : Env := ⟨fun _ => true, fun _ => some fun _ => true, fun _ => true, fun _ => .OK⟩

private theorem fine_complete (v : Version) (t : IType) : Complete C73_fine v t := by
  rintro k e he f -
  cases he
  rfl

private theorem valid_empty : Valid C73_empty := ⟨nofun, nofun, nofun⟩

/-- An instantiated FMU of every version and kind can be reached by proper use. -/
theorem C73_reach (use : Op → Prop) (l : Bool) (v : Version) (t : IType) (hvt : v = .fmi2 → t ≠ .scheduledExecution)
    (h1 : use .load) (h2 : use (.instantiate v t)) :
    ∃ s i, Run C73_fine C73_empty true l use (.instantiated v t) s i := by
  have a := Run.create (env := C73_fine) (s₀ := C73_empty) (logMessage := true) (logFunctionCall := l) (use := use)
    (i := ⟨0, some 1, some 2, none, none, none, none, true, l, .OK⟩) (s := _) rfl
  have b := Run.step (op := .load) (st := .OK) a trivial h1 rfl
  have c : Inv C73_fine C73_empty l .loaded _ _ := (Inv.create valid_empty (fun _ _ => rfl) rfl).load
  obtain ⟨s', i', st, e, h', hr⟩ := c.instantiate v t fun _ _ => ⟨fine_complete v t, fun _ => rfl⟩
  have d := Run.step (op := .instantiate v t) b hvt h2 e
  obtain rfl : st = .OK := by
    rcases hr (fine_complete v t) (fun _ => rfl) with h | ⟨h, hc, -⟩
    · exact h
    · exfalso
      cases v <;> cases t <;> cases l <;> cases e <;> cases hc
  exact ⟨s', i', d⟩

/-- C73 does not hold in full. -/
theorem C73_violated : ¬ C73_full := by
  intro h
  obtain ⟨s, i, r⟩ := C73_reach (Careful C73_fine false) false .fmi3 .coSimulation nofun trivial trivial
  obtain ⟨ha, hu⟩ := C73_violated_shift C73_fine C73_empty valid_empty false nofun r "SetShiftDecimal" (by simp)
  have hr : ∀ {ph : Phase} {s : Sys} {i : Inst}, Run C73_fine C73_empty true false (Careful C73_fine false) ph s i →
      Run C73_fine C73_empty true false (fun _ => True) ph s i := by
    intro ph s i r
    induction r with
    | create e => exact .create e
    | step _ ha _ e ih => exact .step ih ha trivial e
  obtain ⟨x, hx⟩ := (h _ _ _ _ _ _ _ valid_empty (hr r)).1 _ ha trivial
  rw [hu] at hx
  cases hx

/-- A Model Exchange FMU of FMI 3.0 whose library lacks the last function: the status is Fatal, but an instance has
been created in the FMU, which is not freed by `tearDown`. -/
theorem C73_violated_leak :
    ∃ (env : Env) (s : Sys), program env C73_empty .fmi3 .modelExchange [] = .ret (s, .Fatal) ∧
      ¬ SameComponents C73_empty s ∧ ∀ k, env.status k = .OK := by
  refine ⟨{ C73_fine with dlopen := fun _ => some fun f => f != "fmi3ActivateModelPartition" }, _,
    by with_unfolding_all rfl, fun h => ?_, fun _ => rfl⟩
  have := congrFun h 0
  cases this

/-- Concrete case for `C73_partial` and `C73_program_partial`: a program with calls for every version and kind. -/
example : ∃ s st, program C73_fine C73_empty .fmi3 .coSimulation
    ["EnterInitializationMode", "ExitInitializationMode", "DoStep", "GetFloat64"] = .ret (s, st) ∧
    SameResources C73_empty s ∧ (st.rank < Status.Fatal.rank → SameComponents C73_empty s) :=
  C73_program_partial C73_fine C73_empty valid_empty .fmi3 .coSimulation (fun _ => rfl) rfl (fine_complete _ _) _
    (by
      intro f hf
      simp only [List.mem_cons, List.not_mem_nil, or_false] at hf
      rcases hf with rfl | rfl | rfl | rfl <;>
        exact ⟨by decide +kernel, by decide +kernel, fun _ => by decide +kernel⟩)

example : ∃ s i, Run C73_fine C73_empty true true (Careful C73_fine true) (.instantiated .fmi2 .modelExchange) s i :=
  C73_reach _ _ _ _ nofun trivial trivial

example : ∃ s i, Run C73_fine C73_empty true true (Careful C73_fine true) (.instantiated .fmi3 .modelExchange) s i :=
  C73_reach _ _ _ _ nofun trivial ⟨fine_complete _ _, fun _ => rfl⟩

end Verif.Importer
