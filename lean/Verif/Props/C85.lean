import Verif.Lemmas.CallLog
import Verif.Props.C42

/-!
# C85: the importer reports every call with the name of the function, its arguments and its status

The full statement is false: eight functions report their calls wrongly or with undefined behaviour (`C85_violated_…`), and the log message buffer fails at its boundaries (C42). It is proved
for all other functions, all arguments and all sequences of calls.
-/

namespace Verif.Importer.CallLog
open Verif Importer Spec Spec.CallLog

variable {F : Type}

/-- The functions of FMI 2.0 for which the property is false. -/
def faulty2 : List Name := [chars! "fmi2SetDebugLogging"]

/-- The functions of FMI 3.0 for which the property is false. -/
def faulty3 : List Name := [chars! "fmi3SetDebugLogging", chars! "fmi3GetBinary", chars! "fmi3SetBinary", chars! "fmi3SerializeFMUState", chars! "fmi3GetIntervalFraction",
  chars! "fmi3GetNumberOfEventIndicators", chars! "fmi3GetNumberOfContinuousStates"]

theorem checkAll2 : checkAll wrappers2 signatures2 faulty2 = true := by decide +kernel

theorem checkAll3 : checkAll wrappers3 signatures3 faulty3 = true := by decide +kernel

theorem create_holds : ∃ txt, Holds LogBuffer.create txt := ⟨[], rfl, ⟨0, by rfl⟩, by decide, ⟨List.replicate 1023 0, create_buffer, by
  simp only [List.nil_append, List.length_cons, List.length_replicate, LogBuffer.create]⟩⟩

/-- **C85, one call, FMI 2.0, partial.** Each of the functions but `fmi2SetDebugLogging`, called with any arguments that it takes, puts the message `name(p₁=a₁, …)` into the log message buffer, without
undefined behaviour. Missing: `fmi2SetDebugLogging`, for which it is false. -/
theorem FMI2.C85_message_partial {C : CLib F} (hC : Printable C) {w : Wrapper} (hw : w ∈ wrappers2) (hn : w.name ∉ faulty2) :
    ∃ ps, signatures2.lookup w.name = some ps ∧ ∀ args, FitAll args ps args → ∃ os, logOps C args w.code = .ret os ∧ IsMessage C w.name args (logText [] os) := by
  obtain ⟨ps, ss, e, h⟩ := checked_of_checkAll checkAll2 hw hn
  exact ⟨ps, e, fun args hf => let ⟨os, h1, _, h2⟩ := h.message hC hf; ⟨os, h1, h2⟩⟩

/-- **C85, one call, FMI 3.0, partial.** As for FMI 2.0. Missing: the functions `faulty3`, for which it is false. -/
theorem FMI3.C85_message_partial {C : CLib F} (hC : Printable C) {w : Wrapper} (hw : w ∈ wrappers3) (hn : w.name ∉ faulty3) :
    ∃ ps, signatures3.lookup w.name = some ps ∧ ∀ args, FitAll args ps args → ∃ os, logOps C args w.code = .ret os ∧ IsMessage C w.name args (logText [] os) := by
  obtain ⟨ps, ss, e, h⟩ := checked_of_checkAll checkAll3 hw hn
  exact ⟨ps, e, fun args hf => let ⟨os, h1, _, h2⟩ := h.message hC hf; ⟨os, h1, h2⟩⟩

/-- **C85, FMI 2.0, partial.** A new importer instance and an example program with a log file; no reallocation fails. After every sequence of calls of the functions, with any arguments and any
statuses, whose texts never fill the buffer exactly, the log file holds one line `name(p₁=a₁, …) -> status` for each call, in their order. Missing: as above, and the boundaries of the
buffer (C42). -/
theorem FMI2.C85_partial {C : CLib F} (hC : Printable C) {al : Allocator} (hal : ∀ k, al k ≠ none) (cs : List (Wrapper × Args F × Status))
    (h : ∀ w args s, (w, args, s) ∈ cs → w ∈ wrappers2 ∧ w.name ∉ faulty2 ∧ (∃ ps, signatures2.lookup w.name = some ps ∧ FitAll args ps args) ∧
      ∀ os, logOps C args w.code = .ret os → Misses [] os) :
    ∃ fuel₀, ∀ fuel, fuel₀ ≤ fuel → ∃ b log, reports C al fuel cs .create [] = .ret (b, log) ∧ IsLog C (cs.map fun c => (c.1.name, c.2)) log := by
  obtain ⟨f, hf⟩ := reports_log checkAll2 hC hal cs fun c hc => h _ _ _ hc
  exact ⟨f, fun fuel hle => hf fuel hle _ [] create_holds⟩

/-- **C85, FMI 3.0, partial.** As for FMI 2.0. -/
theorem FMI3.C85_partial {C : CLib F} (hC : Printable C) {al : Allocator} (hal : ∀ k, al k ≠ none) (cs : List (Wrapper × Args F × Status))
    (h : ∀ w args s, (w, args, s) ∈ cs → w ∈ wrappers3 ∧ w.name ∉ faulty3 ∧ (∃ ps, signatures3.lookup w.name = some ps ∧ FitAll args ps args) ∧
      ∀ os, logOps C args w.code = .ret os → Misses [] os) :
    ∃ fuel₀, ∀ fuel, fuel₀ ≤ fuel → ∃ b log, reports C al fuel cs .create [] = .ret (b, log) ∧ IsLog C (cs.map fun c => (c.1.name, c.2)) log := by
  obtain ⟨f, hf⟩ := reports_log checkAll3 hC hal cs fun c hc => h _ _ _ hc
  exact ⟨f, fun fuel hle => hf fuel hle _ [] create_holds⟩

/-- The room that an operation needs at most. -/
def room : List LogOp → Nat
  | [] => 0
  | .clear :: ops => room ops
  | .text t :: ops => t.length + room ops
  | .array es :: ops => (es.map fun e => (elemText e).length + 3).sum + room ops

theorem arrayText_length : ∀ es : List Elem, (arrayText es).length ≤ (es.map fun e => (elemText e).length + 3).sum
  | [] => Nat.le_refl _
  | [e] => by simp [arrayText]
  | e :: e' :: es => by
    have := arrayText_length (e' :: es)
    rw [arrayText]
    · simp only [List.length_append, List.map_cons, List.sum_cons, List.length_cons, List.length_nil] at this ⊢
      omega
    · simp

theorem arrayMisses_of_short : ∀ {es : List Elem} {n : Nat}, n + (es.map fun e => (elemText e).length + 3).sum < 1024 → ArrayMisses n es
  | [], _, _ => trivial
  | e :: es, n, h => by
    simp only [List.map_cons, List.sum_cons] at h
    exact ⟨not_bufferSize_of_lt (by omega), arrayMisses_of_short (by omega)⟩

/-- Short texts hit no boundary. -/
theorem misses_of_short : ∀ {ops : List LogOp} {sofar : List UInt8}, sofar.length + room ops < 1024 → Misses sofar ops
  | [], _, _ => trivial
  | .clear :: ops, _, h => misses_of_short (by simp only [room, List.length_nil] at h ⊢; omega) (ops := ops)
  | .text t :: ops, _, h => ⟨not_bufferSize_of_lt (by simp only [room] at h; omega), misses_of_short (by simp only [room, List.length_append] at h ⊢; omega)⟩
  | .array es :: ops, _, h => ⟨arrayMisses_of_short (by simp only [room] at h; omega), misses_of_short (by
      have := arrayText_length es
      simp only [room, List.length_append] at h ⊢; omega)⟩

/-- A C library for numbers without fraction. -/
def plain : CLib Nat := ⟨fun n => digits n, fun n => digits n, fun n => digits n⟩

theorem plain_printable : Printable plain := ⟨fun x => byte_digits_ne x, fun x => byte_digits_ne x, fun x => byte_digits_ne x⟩

/-- The arguments of a call of `fmi2GetReal` for two variables. -/
def twoReals : Args Nat :=
  [(chars! "vr", .array 16 .valueReference (some [.int 1, .int 2])), (chars! "nvr", .scalar (.size 2)), (chars! "value", .array 32 .float64 (some [.real 10, .real 25]))]

def twoReals_ops : List LogOp := [.text ((chars! "fmi2GetReal(vr={").map byte), .array [.text [byte '1'], .text [byte '2']], .text ((chars! "}, nvr=2, value={").map byte),
  .array [.text [byte '1', byte '0'], .text [byte '2', byte '5']], .text ((chars! "})").map byte)]

theorem twoReals_logOps : logOps plain twoReals FMI2GetReal.code = .ret twoReals_ops := by with_unfolding_all rfl

/-- A call of `fmi2GetReal` and one of `fmi2Terminate`: the hypotheses hold, and the first line is `fmi2GetReal(vr={1, 2}, nvr=2, value={10, 25}) -> OK`. -/
example : (∀ w args s, (w, args, s) ∈ [(FMI2GetReal, twoReals, Status.OK), (FMI2Terminate, [], .Error)] → w ∈ wrappers2 ∧ w.name ∉ faulty2 ∧
      (∃ ps, signatures2.lookup w.name = some ps ∧ FitAll args ps args) ∧ ∀ os, logOps plain args w.code = .ret os → Misses [] os) ∧
    logText [] twoReals_ops = (chars! "fmi2GetReal(vr={1, 2}, nvr=2, value={10, 25})").map byte := by
  refine ⟨?_, by decide +kernel⟩
  intro w args s h
  rcases List.mem_cons.1 h with h | h
  · cases h
    refine ⟨by simp [wrappers2], by decide +kernel, ⟨_, rfl, ⟨rfl, ⟨rfl, rfl, ?_, by simp⟩, rfl, trivial, rfl, ⟨rfl, rfl, ?_, by simp⟩, trivial⟩⟩, ?_⟩
    · intro d hd; simp at hd; rcases hd with rfl | rfl <;> trivial
    · intro d hd; simp at hd; rcases hd with rfl | rfl <;> trivial
    · intro os ho
      rw [twoReals_logOps] at ho
      cases ho
      exact misses_of_short (by decide +kernel)
  · cases List.mem_singleton.1 h
    refine ⟨by simp [wrappers2], by decide +kernel, ⟨[], rfl, trivial⟩, fun os ho => ?_⟩
    have : logOps plain [] FMI2Terminate.code = .ret [.text ((chars! "fmi2Terminate()").map byte)] := by with_unfolding_all rfl
    rw [this] at ho
    cases ho
    exact misses_of_short (by decide +kernel)

/-- The arguments of a call of `fmi3EnterInitializationMode`. -/
def experiment : Args Nat := [(chars! "toleranceDefined", .scalar (.int 0)), (chars! "tolerance", .scalar (.double 0)), (chars! "startTime", .scalar (.double 3)),
  (chars! "stopTimeDefined", .scalar (.int 1)), (chars! "stopTime", .scalar (.double 12))]

set_option maxRecDepth 4000 in
/-- A call of `fmi3EnterInitializationMode`: the hypotheses hold, and the message is as expected. -/
example : FMI3EnterInitializationMode ∈ wrappers3 ∧ FMI3EnterInitializationMode.name ∉ faulty3 ∧
    (∃ ps, signatures3.lookup FMI3EnterInitializationMode.name = some ps ∧ FitAll experiment ps experiment) ∧
    ∃ os, logOps plain experiment FMI3EnterInitializationMode.code = .ret os ∧ Misses [] os ∧
      logText [] os = (chars! "fmi3EnterInitializationMode(toleranceDefined=0, tolerance=0, startTime=3, stopTimeDefined=1, stopTime=12)").map byte := by
  refine ⟨by simp [wrappers3], by decide +kernel, ⟨_, rfl, ⟨rfl, trivial, rfl, trivial, rfl, trivial, rfl, trivial, rfl, trivial, trivial⟩⟩, ?_⟩
  refine ⟨[.text ((chars! "fmi3EnterInitializationMode(toleranceDefined=0, tolerance=0, startTime=3, stopTimeDefined=1, stopTime=12)").map byte)], by with_unfolding_all rfl,
    misses_of_short (by decide +kernel), by decide +kernel⟩

set_option maxRecDepth 4000 in
/-- A call of `fmi2NewDiscreteStates`: the hypotheses hold, and the message shows the members of the structure. -/
example : let info : Args Nat := [(chars! "eventInfo", .struct 16 [(chars! "newDiscreteStatesNeeded", .int 0), (chars! "terminateSimulation", .int 0), (chars! "nominalsOfContinuousStatesChanged", .int 0),
      (chars! "valuesOfContinuousStatesChanged", .int 1), (chars! "nextEventTimeDefined", .int 1), (chars! "nextEventTime", .double 7)])]
    (∃ ps, signatures2.lookup FMI2NewDiscreteStates.name = some ps ∧ FitAll info ps info) ∧
    ∃ os, logOps plain info FMI2NewDiscreteStates.code = .ret os ∧
      logText [] os = (chars! "fmi2NewDiscreteStates(eventInfo={newDiscreteStatesNeeded=0, terminateSimulation=0, nominalsOfContinuousStatesChanged=0, valuesOfContinuousStatesChanged=1, nextEventTimeDefined=1, nextEventTime=7})").map byte := by
  refine ⟨⟨_, rfl, rfl, ⟨rfl, trivial, rfl, trivial, rfl, trivial, rfl, trivial, rfl, trivial, rfl, trivial, trivial⟩, trivial⟩, ?_⟩
  exact ⟨[.text ((chars! "fmi2NewDiscreteStates(eventInfo={newDiscreteStatesNeeded=0, terminateSimulation=0, nominalsOfContinuousStatesChanged=0, valuesOfContinuousStatesChanged=1, nextEventTimeDefined=1, nextEventTime=7})").map byte)],
    by with_unfolding_all rfl, by decide +kernel⟩

/-- **C85 is violated**: every reported call of `fmi2SetDebugLogging` has undefined behaviour, because `printf` gets no arguments for two conversions. -/
theorem FMI2.C85_violated_debug (C : CLib F) (args : Args F) : logOps C args FMI2SetDebugLogging.code = .ub := by with_unfolding_all rfl

/-- **C85 is violated**: the same for `fmi3SetDebugLogging`. -/
theorem FMI3.C85_violated_debug (C : CLib F) (args : Args F) : logOps C args FMI3SetDebugLogging.code = .ub := by with_unfolding_all rfl

/-- **C85 is violated**: the reported calls of `fmi3GetNumberOfEventIndicators` and `fmi3GetNumberOfContinuousStates` have undefined behaviour, because `%zu` gets a pointer. -/
theorem FMI3.C85_violated_number (C : CLib F) (address : Nat) (result : Option (Val F)) :
    logOps C [(chars! "nEventIndicators", .out address result)] FMI3GetNumberOfEventIndicators.code = .ub ∧
      logOps C [(chars! "nContinuousStates", .out address result)] FMI3GetNumberOfContinuousStates.code = .ub := ⟨by with_unfolding_all rfl, by with_unfolding_all rfl⟩

set_option maxRecDepth 4000 in
/-- **C85 is violated**: every reported call of `fmi3GetIntervalFraction` has undefined behaviour, because `%d` gets a pointer. -/
theorem FMI3.C85_violated_fraction (C : CLib F) (args : Args F) (ps : List Param) (hp : signatures3.lookup FMI3GetIntervalFraction.name = some ps) (hf : FitAll args ps args) :
    logOps C args FMI3GetIntervalFraction.code = .ub := by
  have e : signatures3.lookup FMI3GetIntervalFraction.name = some [⟨chars! "valueReferences", .array .valueReference (chars! "nValueReferences") none⟩, ⟨chars! "nValueReferences", .scalar .size⟩,
    ⟨chars! "intervalCounters", .array .uint64 (chars! "nValueReferences") none⟩, ⟨chars! "resolutions", .array .uint64 (chars! "nValueReferences") none⟩,
    ⟨chars! "qualifiers", .array .other (chars! "nValueReferences") none⟩] := by with_unfolding_all rfl
  cases hp.symm.trans e
  obtain _ | ⟨⟨n1, a1⟩, _ | ⟨⟨n2, a2⟩, _ | ⟨⟨n3, a3⟩, _ | ⟨⟨n4, a4⟩, _ | ⟨⟨n5, a5⟩, _ | _⟩⟩⟩⟩⟩ := args <;> simp only [FitAll, and_false] at hf
  obtain ⟨rfl, h1, rfl, h2, rfl, h3, rfl, h4, rfl, h5, -⟩ := hf
  cases a1 <;> try exact absurd h1 id
  cases a2 <;> try exact absurd h2 id
  cases a3 <;> try exact absurd h3 id
  cases a4 <;> try exact absurd h4 id
  cases a5 <;> try exact absurd h5 id
  rename_i v _ _ _ _ _ _ _ _ _
  cases v <;> try exact absurd h2 id
  with_unfolding_all rfl

/-- A call of `fmi3GetIntervalFraction` without clocks. -/
example : let args : Args Nat := [(chars! "valueReferences", .array 16 .valueReference (some [])), (chars! "nValueReferences", .scalar (.size 0)), (chars! "intervalCounters", .array 32 .uint64 (some [])),
      (chars! "resolutions", .array 48 .uint64 (some [])), (chars! "qualifiers", .array 64 .other (some []))]
    ∃ ps, signatures3.lookup FMI3GetIntervalFraction.name = some ps ∧ FitAll args ps args :=
  ⟨_, rfl, rfl, ⟨rfl, rfl, by simp, by simp⟩, rfl, trivial, rfl, ⟨rfl, rfl, by simp, by simp⟩, rfl, ⟨rfl, rfl, by simp, by simp⟩, rfl, ⟨rfl, rfl, by simp, by simp⟩, trivial⟩

set_option maxRecDepth 4000 in
/-- **C85 is violated**: the message for `fmi3SerializeFMUState` names a parameter `FMUstate` that the function does not have. -/
theorem FMI3.C85_violated_name {C : CLib F} (state address size : Nat) (bytes : Option (List (Datum F))) :
    let args : Args F := [(chars! "FMUState", .scalar (.pointer state)), (chars! "serializedState", .array address .other bytes), (chars! "size", .scalar (.size size))]
    ∃ os, logOps C args FMI3SerializeFMUState.code = .ret os ∧ ¬ IsMessage C FMI3SerializeFMUState.name args (logText [] os) := by
  have e : logOps C [(chars! "FMUState", .scalar (.pointer state)), (chars! "serializedState", .array address .other bytes), (chars! "size", .scalar (.size size))] FMI3SerializeFMUState.code =
      .ret [.text ((chars! "fmi3SerializeFMUState(FMUstate=0x").map byte ++ (C.p state ++ ((chars! ", serializedState=0x").map byte ++ (C.p address ++ ((chars! ", size=").map byte ++
        (digits size ++ ((chars! ")").map byte))))))) ] := by with_unfolding_all rfl
  refine ⟨_, e, ?_⟩
  rintro ⟨ts, hs, h⟩
  cases hs with | cons h1 hs =>
  cases hs with | cons h2 hs =>
  have := congrArg (fun l => l[25]?) h
  simp [logText, FMI3SerializeFMUState, callArgs, commaSeparated] at this
  exact absurd this (by decide)

/-- The parameters of `fmi3GetBinary` and `fmi3SetBinary`. -/
def binaryParams : List Param := [⟨chars! "valueReferences", .array .valueReference (chars! "nValueReferences") none⟩, ⟨chars! "nValueReferences", .scalar .size⟩,
  ⟨chars! "sizes", .array .sizeT (chars! "nValues") none⟩, ⟨chars! "values", .array .binary (chars! "nValues") (some (chars! "sizes"))⟩, ⟨chars! "nValues", .scalar .size⟩]

theorem binaryParams_signature : signatures3.lookup FMI3GetBinary.name = some binaryParams ∧ signatures3.lookup FMI3SetBinary.name = some binaryParams := by decide +kernel

/-- What the code takes for the parameters. -/
def binaryParams' : List Param := [⟨chars! "valueReferences", .array .valueReference (chars! "nValueReferences") none⟩, ⟨chars! "nValueReferences", .scalar .size⟩,
  ⟨chars! "sizes", .array .sizeT (chars! "nValueReferences") none⟩, ⟨chars! "values", .array .binary (chars! "nValues") (some (chars! "sizes"))⟩, ⟨chars! "nValues", .scalar .size⟩]

theorem check_binary : check FMI3GetBinary binaryParams' = true ∧ check FMI3SetBinary binaryParams' = true := by decide +kernel

/-- **C85, binary values, partial.** `fmi3GetBinary` and `fmi3SetBinary` report their calls as specified if there are as many values as value references. Missing: other numbers of values, for which it
is false. -/
theorem FMI3.C85_binary_partial {C : CLib F} (hC : Printable C) {w : Wrapper} (hw : w = FMI3GetBinary ∨ w = FMI3SetBinary) (args : Args F) (hf : FitAll args binaryParams args)
    (hn : args.lookup (chars! "nValueReferences") = args.lookup (chars! "nValues")) : ∃ os, logOps C args w.code = .ret os ∧ IsMessage C w.name args (logText [] os) := by
  have key : ∀ as : Args F, FitAll args binaryParams as → FitAll args binaryParams' as := by
    intro as h
    obtain _ | ⟨⟨n1, a1⟩, _ | ⟨⟨n2, a2⟩, _ | ⟨⟨n3, a3⟩, as⟩⟩⟩ := as <;> simp only [binaryParams, FitAll, and_false] at h
    obtain ⟨h1, h2, h3, h4, h5, h6, h7⟩ := h
    refine ⟨h1, h2, h3, h4, h5, ?_, h7⟩
    cases a3 with
    | scalar _ => exact h6
    | out _ _ => exact h6
    | struct _ _ => exact h6
    | array a t l => exact ⟨h6.1, hn.trans h6.2.1, h6.2.2⟩
  have hf' := key args hf
  have : ∃ ss, Checked w binaryParams' ss := by
    rcases hw with rfl | rfl
    · exact checked_of_check check_binary.1
    · exact checked_of_check check_binary.2
  obtain ⟨ss, h⟩ := this
  exact let ⟨os, h1, _, h2⟩ := h.message hC hf'; ⟨os, h1, h2⟩

/-- The arguments of a call for the variables `vrs` with the values. -/
def binaries (vrs : List Int) (values : List (List UInt8)) : Args Nat := [(chars! "valueReferences", .array 16 .valueReference (some (vrs.map .int))),
  (chars! "nValueReferences", .scalar (.size vrs.length)), (chars! "sizes", .array 32 .sizeT (some (values.map fun v => .int v.length))),
  (chars! "values", .array 48 .binary (some (values.map fun v => .bytes (some v)))), (chars! "nValues", .scalar (.size values.length))]

theorem binaries_fit (vrs : List Int) (values : List (List UInt8)) : FitAll (binaries vrs values) binaryParams (binaries vrs values) := by
  have h1 : ∀ (l : List Int), ∀ d ∈ l.map (Datum.int (F := Nat)), HasElemType .valueReference d := by
    intro l d hd; obtain ⟨i, -, rfl⟩ := List.mem_map.1 hd; trivial
  refine ⟨rfl, ⟨rfl, ?_, h1 vrs, by simp⟩, rfl, trivial, rfl, ⟨rfl, ?_, ?_, by simp⟩, rfl, ⟨rfl, ?_, ?_, fun _ => ⟨_, rfl, 32, _, rfl, ?_⟩⟩, rfl, trivial, trivial⟩
  · rw [Option.getD_some, List.length_map]; rfl
  · rw [Option.getD_some, List.length_map]; rfl
  · intro d hd; obtain ⟨i, -, rfl⟩ := List.mem_map.1 hd; trivial
  · rw [Option.getD_some, List.length_map]; rfl
  · intro d hd; obtain ⟨i, -, rfl⟩ := List.mem_map.1 hd; trivial
  · rw [Option.getD_some, List.map_map]; rfl

/-- Two values: the hypotheses of `C85_binary_partial` hold. -/
example : FitAll (binaries [31, 32] [[171], [1, 2]]) binaryParams (binaries [31, 32] [[171], [1, 2]]) ∧
    (binaries [31, 32] [[171], [1, 2]]).lookup (chars! "nValueReferences") = (binaries [31, 32] [[171], [1, 2]]).lookup (chars! "nValues") ∧
    ∃ os, logOps plain (binaries [31, 32] [[171], [1, 2]]) FMI3GetBinary.code = .ret os ∧
      logText [] os = (chars! "fmi3GetBinary(valueReferences={31, 32}, nValueReferences=2, sizes={1, 2}, values={0xab, 0x0102}, nValues=2)").map byte := by
  refine ⟨binaries_fit _ _, rfl, ?_⟩
  exact ⟨[.text ((chars! "fmi3GetBinary(valueReferences={").map byte), .array [.text [51, 49], .text [51, 50]], .text ((chars! "}, nValueReferences=2, sizes={").map byte),
    .array [.text [49], .text [50]], .text ((chars! "}, values={").map byte), .array [.binary [171], .binary [1, 2]], .text ((chars! "}, nValues=2)").map byte)],
    by with_unfolding_all rfl, by decide +kernel⟩

/-- **C85 is violated**: with fewer values than value references (an array without elements among the variables) the report of `fmi3GetBinary` and `fmi3SetBinary` reads behind the end of the
sizes. -/
theorem FMI3.C85_violated_binary : ∃ vrs values, FitAll (binaries vrs values) binaryParams (binaries vrs values) ∧
    logOps plain (binaries vrs values) FMI3GetBinary.code = .ub ∧ logOps plain (binaries vrs values) FMI3SetBinary.code = .ub :=
  ⟨[31, 32], [[171]], binaries_fit _ _, by with_unfolding_all rfl, by with_unfolding_all rfl⟩

/-- **C85 is violated**: with more values than value references (an array among the variables) the message of `fmi3GetBinary` lacks sizes. -/
theorem FMI3.C85_violated_sizes : ∃ vrs values os, FitAll (binaries vrs values) binaryParams (binaries vrs values) ∧
    logOps plain (binaries vrs values) FMI3GetBinary.code = .ret os ∧
    logText [] os = (chars! "fmi3GetBinary(valueReferences={31}, nValueReferences=1, sizes={1}, values={0xab, 0x0102}, nValues=2)").map byte :=
  ⟨[31], [[171], [1, 2]], [.text ((chars! "fmi3GetBinary(valueReferences={").map byte), .array [.text [51, 49]], .text ((chars! "}, nValueReferences=1, sizes={").map byte),
    .array [.text [49]], .text ((chars! "}, values={").map byte), .array [.binary [171], .binary [1, 2]], .text ((chars! "}, nValues=2)").map byte)],
    binaries_fit _ _, by with_unfolding_all rfl, by decide +kernel⟩

end Verif.Importer.CallLog
