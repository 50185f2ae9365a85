import Verif.Lemmas.OutputFile
import Verif.Props.C82ME
import Verif.Props.C82StateSpace
import Verif.Props.C82
import Verif.Importer.Programs

/-!
# C83 The output files are tables

See properties.jsonl.
-/

set_option linter.unusedSectionVars false

namespace Verif
open Importer.CoSim Importer.OutputFile Csv

/-- **C83 is violated** by Feedthrough in every version of FMI: the call of `fprintf` that writes the string is undefined, whatever the string is. -/
theorem C83_violated_string {F : Type} {g : Digits F} {as : List (Arg F)} : fprintf g none formatS as = .ub := rfl

/-! ## FMI 2.0 -/

namespace FMI2
variable {F : Type} [Arith F] [HasInf F]

/-- The example programs with the first line of their output files and the format of the other lines: the FMU, the program, the first line, its cells and the format. -/
inductive Written : {D : Type} → Model F D → Program F (Op F) → List Char → List String → List Char → Prop
  | bouncingBall : Written BouncingBall.model bouncingBall2 headerBouncingBall ["time", "h", "v"] format2
  | dahlquist : Written Dahlquist.model dahlquist2 headerDahlquist ["time", "x"] format1
  | vanDerPol : Written VanDerPol.model vanDerPol2 headerVanDerPol ["time", "x0", "x1"] format2
  | stair : Written Stair.model stair2 headerStair ["time", "counter"] formatInt
  | resource {fs} : Written (Resource.model false fs) resource2 headerY ["time", "y"] formatInt

/-- What is true of the values that the program reads. -/
def Printable (format : List Char) (columns : Nat) (vs : List (Out F)) : Prop :=
  (∃ x y, format = format2 ∧ columns = 3 ∧ vs = [.reals (some [x, y])]) ∨ (∃ x, format = format1 ∧ columns = 2 ∧ vs = [.reals (some [x])]) ∨
    ∃ i, format = formatInt ∧ columns = 2 ∧ vs = [.ints (some [i])]

theorem Written.printable {D : Type} {m : Model F D} {P : Program F (Op F)} {header heads format} (h : Written m P header heads format) {fuel : Nat}
    {w w' : World F D} {vs} (ha : AllOK (step m fuel) w P.record w' vs) : Printable format heads.length vs := by
  have one : ∀ {D : Type} {m : Model F D}, KeepsLength m → ∀ {w w' : World F D} {vs a}, AllOK (step m fuel) w [.getReal (some [1]) 1 (some [a])] w' vs →
      ∃ x, vs = [.reals (some [x])] := by
    intro D m hm w w' vs a ha
    cases ha with | cons e hn => cases hn with | nil =>
    obtain ⟨l, rfl, hl⟩ := getReal_length hm e
    match l, hl with
    | [x], _ => exact ⟨x, rfl⟩
  have two : ∀ {D : Type} {m : Model F D}, KeepsLength m → ∀ {w w' : World F D} {vs a b}, AllOK (step m fuel) w [.getReal (some [1, 3]) 2 (some [a, b])] w' vs →
      ∃ x y, vs = [.reals (some [x, y])] := by
    intro D m hm w w' vs a b ha
    cases ha with | cons e hn => cases hn with | nil =>
    obtain ⟨l, rfl, hl⟩ := getReal_length hm e
    match l, hl with
    | [x, y], _ => exact ⟨x, y, rfl⟩
  have int : ∀ {D : Type} {m : Model F D}, KeepsLength m → ∀ {w w' : World F D} {vs a}, AllOK (step m fuel) w [.getInteger (some [1]) 1 (some [a])] w' vs →
      ∃ x, vs = [.ints (some [x])] := by
    intro D m hm w w' vs a ha
    cases ha with | cons e hn => cases hn with | nil =>
    obtain ⟨l, rfl, hl⟩ := getInteger_length hm e
    match l, hl with
    | [x], _ => exact ⟨x, rfl⟩
  cases h with
  | bouncingBall => obtain ⟨x, y, rfl⟩ := two BouncingBall.keepsLength ha; exact .inl ⟨x, y, rfl, rfl, rfl⟩
  | dahlquist => obtain ⟨x, rfl⟩ := one Dahlquist.keepsLength ha; exact .inr (.inl ⟨x, rfl, rfl, rfl⟩)
  | vanDerPol => obtain ⟨x, y, rfl⟩ := two VanDerPol.keepsLength ha; exact .inl ⟨x, y, rfl, rfl, rfl⟩
  | stair => obtain ⟨x, rfl⟩ := int Stair.keepsLength ha; exact .inr (.inr ⟨x, rfl, rfl, rfl⟩)
  | resource => obtain ⟨x, rfl⟩ := int Resource.keepsLength ha; exact .inr (.inr ⟨x, rfl, rfl, rfl⟩)

/-- The file is a table. -/
theorem Written.table {D : Type} {m : Model F D} {P : Program F (Op F)} {header heads format} (h : Written m P header heads format) {fuel : Nat} {g : Digits F}
    (hg : Plain g) {rows : List (Row F (Out F))} (hr : FromCalls (step m fuel) P.record rows) :
    ∃ text, outputFile header (printValues args2 g format) rows = .ret text ∧
      IsTable text (heads.map String.toList :: rows.map fun r => g none r.time :: r.values.flatMap (shown2 g)) ∧
      ∀ r ∈ rows, (g none r.time :: r.values.flatMap (shown2 g)).length = heads.length := by
  have hh : Line header (heads.map String.toList) := by
    cases h
    · exact ⟨headerBouncingBall.dropLast, by decide, by decide, by decide⟩
    · exact ⟨headerDahlquist.dropLast, by decide, by decide, by decide⟩
    · exact ⟨headerVanDerPol.dropLast, by decide, by decide, by decide⟩
    · exact ⟨headerStair.dropLast, by decide, by decide, by decide⟩
    · exact ⟨headerY.dropLast, by decide, by decide, by decide⟩
  have hp : ∀ r ∈ rows, Printable format heads.length r.values := fun r hr' => let ⟨_, _, ha⟩ := hr r hr'; h.printable ha
  obtain ⟨text, e, hs⟩ := file_shows (line := printValues args2 g format) (cells := fun r => g none r.time :: r.values.flatMap (shown2 g)) (rows := rows) hh fun r hr => by
    rcases hp r hr with ⟨x, y, rfl, -, e⟩ | ⟨x, rfl, -, e⟩ | ⟨x, rfl, -, e⟩ <;> rw [e]
    · exact ⟨_, by simp only [printValues, e, args2]; exact fprintf_format2, .cons (hg _ _).1 (hg _ _).2 (.cons (hg _ _).1 (hg _ _).2 (.last (hg _ _).1 (hg _ _).2))⟩
    · exact ⟨_, by simp only [printValues, e, args2]; exact fprintf_format1, .cons (hg _ _).1 (hg _ _).2 (.last (hg _ _).1 (hg _ _).2)⟩
    · exact ⟨_, by simp only [printValues, e, args2]; exact fprintf_formatInt, .cons (hg _ _).1 (hg _ _).2 (.last (number_plain _).1 (number_plain _).2)⟩
  refine ⟨text, e, hs, fun r hr => ?_⟩
  rcases hp r hr with ⟨x, y, -, hc, e⟩ | ⟨x, -, hc, e⟩ | ⟨x, -, hc, e⟩ <;> rw [e, hc] <;> rfl

variable {D : Type} {m : Model F D} {P : Program F (Op F)} {header : List Char} {heads : List String} {format : List Char} {g : Digits F}
  {fuel n : Nat} {resource : Ptr UInt8} {rows : List (Row F (Out F))}

/-- **C83**, FMI 2.0, Co-Simulation: the output file is written without undefined behaviour; it is a table whose first line names the columns and whose other lines show the
time and the values of one recorded row each, one for every column. -/
theorem C83 (hw : Written m P header heads format) (hg : Plain g) (h : simulate2 m P fuel n resource = .ret (.OK, rows)) :
    ∃ text, outputFile header (printValues args2 g format) rows = .ret text ∧
      IsTable text (heads.map String.toList :: rows.map fun r => g none r.time :: r.values.flatMap (shown2 g)) ∧
      ∀ r ∈ rows, (g none r.time :: r.values.flatMap (shown2 g)).length = heads.length := by
  obtain ⟨c, l, w₀, vs, -, -, hc⟩ := C82 h
  refine hw.table hg (hc.fromCalls ?_)
  rintro w t w' last ⟨w₁, w₂, o, t', vs, -, -, ha, rfl⟩ r hr
  rw [List.mem_singleton] at hr; subst hr
  exact ⟨_, _, ha⟩

/-- **C83**, FMI 2.0, Model Exchange. -/
theorem C83_me {M : Importer.Euler.Macros} (hw : Written m P header heads format) (hg : Plain g) (h : Importer.Euler.simulate2 m M P fuel n resource = .ret (.OK, rows)) :
    ∃ text, outputFile header (printValues args2 g format) rows = .ret text ∧
      IsTable text (heads.map String.toList :: rows.map fun r => g none r.time :: r.values.flatMap (shown2 g)) ∧
      ∀ r ∈ rows, (g none r.time :: r.values.flatMap (shown2 g)).length = heads.length := by
  obtain ⟨c, l, w, w', o, -, hc, -⟩ := C82_me h
  exact hw.table hg hc.fromCalls

/-- **C83 is violated** by Feedthrough, FMI 2.0: whatever the values are, the line with the string is printed with an invalid conversion specification, which is
undefined. -/
theorem C83_violated_feedthrough {g : Digits F} {r : Row F (Out F)} : printFeedthrough2 g r = .ub := by
  unfold printFeedthrough2
  split
  · split
    · rfl
    · rfl
  · rfl

/-- A run that meets the hypotheses: the program of Stair, and numbers that are printed as fractions. -/
def fractions : Digits XRat
  | _, .fin q => decimal q.num ++ '/' :: decimal q.den
  | _, .nan => ['n', 'a', 'n']
  | _, _ => ['i', 'n', 'f']

theorem fractions_plain : Plain fractions := by
  intro p x
  cases x with
  | fin q =>
    have h1 := decimal_plain q.num
    have h2 := decimal_plain q.den
    simp only [fractions, List.mem_append, List.mem_cons, not_or]
    exact ⟨⟨h1.1, by decide, h2.1⟩, h1.2, by decide, h2.2⟩
  | _ => simp [fractions]

example : ∃ rows text, simulate2 (Stair.model : Model XRat _) stair2 106 51 none = .ret (.OK, rows) ∧
    outputFile headerStair (printValues args2 fractions formatInt) rows = .ret text ∧
    IsTable text (["time".toList, "counter".toList] :: rows.map fun r => fractions none r.time :: r.values.flatMap (shown2 fractions)) := by
  obtain ⟨⟨s, rows⟩, e, h⟩ := Outcome.exists_of_is (r := simulate2 (Stair.model : Model XRat _) stair2 106 51 none)
    (p := fun x => decide (x.1 = .OK)) (by decide +kernel)
  simp only [decide_eq_true_eq] at h
  subst h
  obtain ⟨text, e1, e2, -⟩ := C83 .stair fractions_plain e
  exact ⟨rows, text, e, e1, e2⟩

/-- A line. -/
example : printValues args2 fractions formatInt ⟨XRat.fin (1 / 5), [.ints (some [-12])]⟩ = .ret ['1', '/', '5', ',', '-', '1', '2', '\n'] := by decide +kernel

end FMI2

/-! ## FMI 3.0 -/

namespace FMI3
variable {F : Type} [Arith F] [HasInf F]

/-- The example programs with the first line of their output files and the format of the other lines: the FMU, the program, the first line, its cells and the format. -/
inductive Written : {D : Type} → Model F D → Program F (Op F) → List Char → List String → List Char → Prop
  | bouncingBall : Written BouncingBall.model bouncingBall3 headerBouncingBall ["time", "h", "v"] format2
  | dahlquist : Written Dahlquist.model dahlquist3 headerDahlquist ["time", "x"] format1
  | vanDerPol : Written VanDerPol.model vanDerPol3 headerVanDerPol ["time", "x0", "x1"] format2
  | stair : Written Stair.model stair3 headerStair ["time", "counter"] formatInt
  | resource {fs} : Written (Resource.model true fs) resource3 headerY ["time", "y"] formatInt

/-- What is true of the values that the program reads. -/
def Printable (format : List Char) (columns : Nat) (vs : List (Out F)) : Prop :=
  (∃ x y, format = format2 ∧ columns = 3 ∧ vs = [.values .float64 (some [x, y])]) ∨ (∃ x, format = format1 ∧ columns = 2 ∧ vs = [.values .float64 (some [x])]) ∨
    ∃ i : Int, format = formatInt ∧ columns = 2 ∧ vs = [.values .int32 (some [i])]

theorem Written.printable {D : Type} {m : Model F D} {P : Program F (Op F)} {header heads format} (h : Written m P header heads format) {fuel : Nat}
    {w w' : World F D} {vs} (ha : AllOK (step m fuel) w P.record w' vs) : Printable format heads.length vs := by
  have one : ∀ {D : Type} {m : Model F D}, KeepsLength m → ∀ {w w' : World F D} {vs} {a : F}, AllOK (step m fuel) w [.get .float64 (some [1]) 1 (some [a]) 1] w' vs →
      ∃ x, vs = [.values .float64 (some [x])] := by
    intro D m hm w w' vs a ha
    cases ha with | cons e hn => cases hn with | nil =>
    obtain ⟨l, rfl, hl⟩ := get_length hm e
    match l, hl with
    | [x], _ => exact ⟨x, rfl⟩
  have two : ∀ {D : Type} {m : Model F D}, KeepsLength m → ∀ {w w' : World F D} {vs} {a b : F}, AllOK (step m fuel) w [.get .float64 (some [1, 3]) 2 (some [a, b]) 2] w' vs →
      ∃ x y, vs = [.values .float64 (some [x, y])] := by
    intro D m hm w w' vs a b ha
    cases ha with | cons e hn => cases hn with | nil =>
    obtain ⟨l, rfl, hl⟩ := get_length hm e
    match l, hl with
    | [x, y], _ => exact ⟨x, y, rfl⟩
  have int : ∀ {D : Type} {m : Model F D}, KeepsLength m → ∀ {w w' : World F D} {vs} {a : Int}, AllOK (step m fuel) w [.get .int32 (some [1]) 1 (some [a]) 1] w' vs →
      ∃ x : Int, vs = [.values .int32 (some [x])] := by
    intro D m hm w w' vs a ha
    cases ha with | cons e hn => cases hn with | nil =>
    obtain ⟨l, rfl, hl⟩ := get_length hm e
    match l, hl with
    | [x], _ => exact ⟨x, rfl⟩
  cases h with
  | bouncingBall => obtain ⟨x, y, rfl⟩ := two BouncingBall.keepsLength ha; exact .inl ⟨x, y, rfl, rfl, rfl⟩
  | dahlquist => obtain ⟨x, rfl⟩ := one Dahlquist.keepsLength ha; exact .inr (.inl ⟨x, rfl, rfl, rfl⟩)
  | vanDerPol => obtain ⟨x, y, rfl⟩ := two VanDerPol.keepsLength ha; exact .inl ⟨x, y, rfl, rfl, rfl⟩
  | stair => obtain ⟨x, rfl⟩ := int Stair.keepsLength ha; exact .inr (.inr ⟨x, rfl, rfl, rfl⟩)
  | resource => obtain ⟨x, rfl⟩ := int Resource.keepsLength ha; exact .inr (.inr ⟨x, rfl, rfl, rfl⟩)

/-- The file is a table. -/
theorem Written.table {D : Type} {m : Model F D} {P : Program F (Op F)} {header heads format} (h : Written m P header heads format) {fuel : Nat} {g : Digits F}
    (hg : Plain g) {rows : List (Row F (Out F))} (hr : FromCalls (step m fuel) P.record rows) :
    ∃ text, outputFile header (printValues args3 g format) rows = .ret text ∧
      IsTable text (heads.map String.toList :: rows.map fun r => g none r.time :: r.values.flatMap (shown3 g)) ∧
      ∀ r ∈ rows, (g none r.time :: r.values.flatMap (shown3 g)).length = heads.length := by
  have hh : Line header (heads.map String.toList) := by
    cases h
    · exact ⟨headerBouncingBall.dropLast, by decide, by decide, by decide⟩
    · exact ⟨headerDahlquist.dropLast, by decide, by decide, by decide⟩
    · exact ⟨headerVanDerPol.dropLast, by decide, by decide, by decide⟩
    · exact ⟨headerStair.dropLast, by decide, by decide, by decide⟩
    · exact ⟨headerY.dropLast, by decide, by decide, by decide⟩
  have hp : ∀ r ∈ rows, Printable format heads.length r.values := fun r hr' => let ⟨_, _, ha⟩ := hr r hr'; h.printable ha
  obtain ⟨text, e, hs⟩ := file_shows (line := printValues args3 g format) (cells := fun r => g none r.time :: r.values.flatMap (shown3 g)) (rows := rows) hh fun r hr => by
    rcases hp r hr with ⟨x, y, rfl, -, e⟩ | ⟨x, rfl, -, e⟩ | ⟨x, rfl, -, e⟩ <;> rw [e]
    · exact ⟨_, by simp only [printValues, e, args3]; exact fprintf_format2, .cons (hg _ _).1 (hg _ _).2 (.cons (hg _ _).1 (hg _ _).2 (.last (hg _ _).1 (hg _ _).2))⟩
    · exact ⟨_, by simp only [printValues, e, args3]; exact fprintf_format1, .cons (hg _ _).1 (hg _ _).2 (.last (hg _ _).1 (hg _ _).2)⟩
    · exact ⟨_, by simp only [printValues, e, args3]; exact fprintf_formatInt, .cons (hg _ _).1 (hg _ _).2 (.last (number_plain _).1 (number_plain _).2)⟩
  refine ⟨text, e, hs, fun r hr => ?_⟩
  rcases hp r hr with ⟨x, y, -, hc, e⟩ | ⟨x, -, hc, e⟩ | ⟨x, -, hc, e⟩ <;> rw [e, hc] <;> rfl

section
variable {D : Type} {m : Model F D} {P : Program F (Op F)} {header : List Char} {heads : List String} {format : List Char} {g : Digits F}
  {fuel n : Nat} {resource : Ptr UInt8} {rows : List (Row F (Out F))}

/-- **C83**, FMI 3.0, Co-Simulation: the output file is written without undefined behaviour; it is a table whose first line names the columns and whose other lines show the
time and the values of one recorded row each, one for every column. -/
theorem C83 (hw : Written m P header heads format) (hg : Plain g) (h : simulate3 m P fuel n resource = .ret (.OK, rows)) :
    ∃ text, outputFile header (printValues args3 g format) rows = .ret text ∧
      IsTable text (heads.map String.toList :: rows.map fun r => g none r.time :: r.values.flatMap (shown3 g)) ∧
      ∀ r ∈ rows, (g none r.time :: r.values.flatMap (shown3 g)).length = heads.length := by
  obtain ⟨c, l, w₀, vs, -, -, hc⟩ := C82 h
  refine hw.table hg (hc.fromCalls ?_)
  rintro w t w' last ⟨r, -, -, rfl⟩ r hr
  cases hr

/-- **C83**, FMI 3.0, Model Exchange. -/
theorem C83_me {M : Importer.Euler.Macros} (hw : Written m P header heads format) (hg : Plain g) (h : Importer.Euler.simulate3 m M P fuel n resource = .ret (.OK, rows)) :
    ∃ text, outputFile header (printValues args3 g format) rows = .ret text ∧
      IsTable text (heads.map String.toList :: rows.map fun r => g none r.time :: r.values.flatMap (shown3 g)) ∧
      ∀ r ∈ rows, (g none r.time :: r.values.flatMap (shown3 g)).length = heads.length := by
  obtain ⟨c, l, w, w', o, -, hc, -⟩ := C82_me h
  exact hw.table hg hc.fromCalls

end

/-! ### StateSpace -/

section
variable {g : Digits F} {h stopTime : F} {fuel n : Nat} {resource : Ptr UInt8} {rows : List (Row F (List F))}

omit [Arith F] [HasInf F] in
theorem vectorCell_plain (hg : Plain g) : ∀ y, ',' ∉ vectorCell g y ∧ '\n' ∉ vectorCell g y
  | [] => ⟨by simp [vectorCell], by simp [vectorCell]⟩
  | [x] => hg _ _
  | x :: y :: xs => by
    have ih := vectorCell_plain hg (y :: xs)
    simp only [vectorCell, List.mem_append, List.mem_cons, not_or]
    exact ⟨⟨(hg _ _).1, by decide, ih.1⟩, (hg _ _).2, by decide, ih.2⟩

omit [Arith F] [HasInf F] in
theorem printVector_false {x : F} {xs : List F} : printVector g false (x :: xs) = .ret (' ' :: vectorCell g (x :: xs)) := by
  induction xs generalizing x with
  | nil =>
    show Outcome.ret (' ' :: (g none x ++ []) ++ []) = _
    simp [vectorCell]
  | cons y ys ih =>
    have e : fprintf g none [' ', '%', 'g'] [.real x] = .ret (' ' :: (g none x ++ [])) := rfl
    unfold printVector
    rw [if_neg (by decide), e, ih]
    simp [vectorCell, Outcome.ret_bind]

omit [Arith F] [HasInf F] in
theorem printVector_true : ∀ {y : List F}, printVector g true y = .ret (vectorCell g y)
  | [] => rfl
  | [x] => by
    show Outcome.ret ((g none x ++ []) ++ []) = _
    simp [vectorCell]
  | x :: y :: ys => by
    have e : fprintf g none ['%', 'g'] [.real x] = .ret (g none x ++ []) := rfl
    unfold printVector
    rw [if_pos rfl, e, printVector_false]
    simp [vectorCell, Outcome.ret_bind]

theorem stateSpace_table (hg : Plain g) (hr : FromCalls (apiStateSpace (StateSpace.model : Model F _) fuel h).call [.recordVariables] rows) :
    ∃ text, outputFile headerY (printStateSpace g) rows = .ret text ∧
      IsTable text (["time".toList, "y".toList] :: rows.map fun r => [g none r.time, r.values.flatMap (vectorCell g)]) := by
  refine file_shows ⟨headerY.dropLast, by decide, by decide, by decide⟩ fun r hr' => ?_
  obtain ⟨w, w', ha⟩ := hr r hr'
  have : ∃ y, r.values = [y] := by
    revert ha
    generalize r.values = vs
    intro ha
    cases ha with | cons e hn => cases hn with | nil => exact ⟨_, rfl⟩
  obtain ⟨y, e⟩ := this
  have e1 : fprintf g none ['%', 'g', ','] [.real r.time] = .ret (g none r.time ++ [',']) := rfl
  refine ⟨g none r.time ++ ',' :: (vectorCell g y ++ ['\n']), ?_, ?_⟩
  · simp only [printStateSpace, e, e1, printVector_true, Outcome.ret_bind, List.append_assoc, List.cons_append, List.nil_append]
  · rw [e, List.flatMap_singleton]
    exact .cons (hg _ _).1 (hg _ _).2 (.last (vectorCell_plain hg y).1 (vectorCell_plain hg y).2)

/-- **C83**, StateSpace, Co-Simulation: the output is one cell, its elements separated by spaces. -/
theorem C83_stateSpace (hg : Plain g) (hr : Importer.CoSim.simulateStateSpace h stopTime fuel n resource = .ret (.OK, rows)) :
    ∃ text, outputFile headerY (printStateSpace g) rows = .ret text ∧
      IsTable text (["time".toList, "y".toList] :: rows.map fun r => [g none r.time, r.values.flatMap (vectorCell g)]) := by
  obtain ⟨c, l, w₀, vs, -, -, hc⟩ := C82_stateSpace hr
  refine stateSpace_table (h := h) hg (hc.fromCalls ?_)
  rintro w t w' last ⟨r, -, -, rfl⟩ r hr
  cases hr

/-- **C83**, StateSpace, Model Exchange. -/
theorem C83_me_stateSpace {M : Importer.Euler.Macros} (hg : Plain g) (hr : Importer.Euler.simulateStateSpace M h stopTime fuel n resource = .ret (.OK, rows)) :
    ∃ text, outputFile headerY (printStateSpace g) rows = .ret text ∧
      IsTable text (["time".toList, "y".toList] :: rows.map fun r => [g none r.time, r.values.flatMap (vectorCell g)]) := by
  obtain ⟨c, l, w, w', o, -, hc, -⟩ := C82_me_stateSpace hr
  exact stateSpace_table (h := h) hg hc.fromCalls

end

/-- Runs that meet the hypotheses. -/
example : ∃ rows, simulate3 (Stair.model : Model XRat _) stair3 106 51 none = .ret (.OK, rows) := by
  obtain ⟨⟨s, rows⟩, e, h⟩ := Outcome.exists_of_is (r := simulate3 (Stair.model : Model XRat _) stair3 106 51 none)
    (p := fun x => decide (x.1 = .OK)) (by decide +kernel)
  simp only [decide_eq_true_eq] at h
  exact ⟨rows, by rw [e, h]⟩

example : ∃ rows, Importer.CoSim.simulateStateSpace (XRat.fin (1 / 1000)) (.fin (2 / 1000)) 100 3 none = .ret (.OK, rows) ∧ rows.length = 3 := by
  obtain ⟨⟨s, rows⟩, e, h⟩ := Outcome.exists_of_is (r := Importer.CoSim.simulateStateSpace (XRat.fin (1 / 1000)) (.fin (2 / 1000)) 100 3 none)
    (p := fun x => decide (x.1 = .OK ∧ x.2.length = 3)) (by decide +kernel)
  simp only [decide_eq_true_eq] at h
  exact ⟨rows, by rw [e, h.1], h.2⟩

example : FMI2.fractions none (.fin (-1)) = ['-', '1', '/', '1'] ∧ printStateSpace FMI2.fractions ⟨.fin 0, [[.fin 1, .fin 2]]⟩ = .ret ['0', '/', '1', ',', '1', '/', '1', ' ', '2', '/', '1', '\n'] := by
  decide +kernel

end FMI3
end Verif
