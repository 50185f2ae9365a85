import Verif.Lemmas.ResourceRun

/-!
# C84 The programs of Resource read the file in the resources directory of the FMU

See properties.jsonl.
-/

set_option linter.unusedSectionVars false

namespace Verif
open Importer.CoSim Importer.ResourceLocation

/-- Two slashes in a path mean the same as one (POSIX, pathname resolution). -/
def SlashesMerge (fs : Resource.FileSystem) : Prop := ∀ a b, fs (a ++ [47, 47] ++ b) = fs (a ++ [47] ++ b)

/-- `dir` is the absolute path of a directory, without zero bytes, and its file `y.txt` begins with `b` (`none`: it is empty). -/
structure HasResource (fs : Resource.FileSystem) (dir : List UInt8) (b : Option UInt8) : Prop where
  absolute : dir.head? = some 47
  string : 0 ∉ dir
  file : fs (dir ++ Spec.ascii "/y.txt") = some b

theorem resourcePath_ok {dir : List UInt8} (h : dir.length ≤ 4094) : Importer.ResourceLocation.resourcePath (some dir) = .ret (dir ++ [47]) := by
  have e : Resource.ascii "/" = [47] := by decide
  unfold Importer.ResourceLocation.resourcePath strcat
  rw [e]
  exact if_pos (by simp only [List.length_cons, List.length_nil]; omega)

theorem resourceURI_ok {dir : List UInt8} (h : dir.length ≤ 4087) : resourceURI (some dir) = .ret (Spec.ascii "file://" ++ (dir ++ [47])) := by
  have e : (Resource.ascii "file://").length = 7 := by decide
  unfold resourceURI strcat
  rw [resourcePath_ok (by omega), Outcome.ret_bind]
  exact if_pos (by simp only [e, List.length_append, List.length_cons, List.length_nil]; omega)

theorem percentDecodes_self : ∀ {p : List UInt8}, 37 ∉ p → Spec.PercentDecodes p p
  | [], _ => .nil
  | c :: p, h => by
    rw [List.mem_cons, not_or] at h
    exact .plain (Ne.symm h.1) (percentDecodes_self h.2)

namespace FMI2
variable {F : Type} [Arith F] [HasInf F] {fs : Resource.FileSystem} {dir : List UInt8} {b : Option UInt8} {fuel n : Nat} {rows : List (Row F (Out F))}

theorem resource_rows (hs : SlashesMerge fs) (hd : HasResource fs dir b) (hl : dir.length ≤ 4087) (hp : 37 ∉ dir) {t c l}
    (hc : instantiate (Resource.model false fs) (some "instance1") t (some (Resource.model false fs : Model F _).token) (some (Spec.ascii "file://" ++ (dir ++ [47])))
      (some true) false true = (some c, l))
    (hr : ReadIn (After (Resource.model false fs) fuel c) (FMI2.step (Resource.model false fs) fuel) (resource2 (F := F)).record rows) :
    ∀ r ∈ rows, r.values = [.ints (some [Spec.fileValue b])] := by
  intro r hr'
  obtain ⟨w, w', ⟨ops, outs, hw⟩, ha⟩ := hr r hr'
  revert ha
  generalize r.values = vs
  intro ha
  cases ha with | cons e hn => cases hn with | nil =>
  have hst : w.inst.ctx.state ∈ FMI2.Spec.allowedIn .getInteger := by
    by_cases hst : w.inst.ctx.state ∈ FMI2.Spec.allowedIn .getInteger
    · exact hst
    · obtain ⟨w1, e1, -⟩ := C01_disallowed_call_refused (Resource.model false fs) fuel w (.getInteger (some [1]) 1 (some [0])) hst
      rw [e1] at e
      cases e
  have h := Resource.C40_partial (fs := fs) (uri := Spec.ascii "file://" ++ (dir ++ [47])) (p := dir ++ [47]) (q := dir ++ [47]) (c := b) (w := w)
    ⟨_, _, _, _, _, _, c, l, .fresh c, fuel, ops, outs, hc, ⟨rfl, fun _ => rfl, fun _ _ h => by simp [World.fresh] at h⟩, hw⟩
    ⟨by have := hd.absolute; cases dir with
          | nil => cases this
          | cons a d => exact this, .inl rfl⟩
    (percentDecodes_self (by simp [hp])) (by simp [hd.string]) (by simp only [List.length_append, List.length_cons, List.length_nil]; omega)
    (by have : (Spec.ascii "/y.txt").length = 6 := by decide
        simp only [List.length_append, List.length_cons, List.length_nil, this]; omega)
    (by
      have e1 : Spec.ascii "/y.txt" = 47 :: Spec.ascii "y.txt" := by decide
      have := hs dir (Spec.ascii "y.txt")
      have hf := hd.file
      rw [e1] at hf ⊢
      rw [List.append_assoc] at this ⊢
      simp only [List.cons_append, List.nil_append, List.append_assoc] at this hf ⊢
      rw [this]; exact hf) hst
  obtain ⟨w1, e1⟩ := h fuel 0
  rw [e1] at e
  cases e
  rfl

/-- **C84, partial**, FMI 2.0, Co-Simulation: in every run of the program that ends with the status OK every row contains the content of the file. Missing: paths that are
longer or contain `%`, for which it is false (`C84_violated_percent`, `C84_violated_long`). -/
theorem C84_partial (hs : SlashesMerge fs) (hd : HasResource fs dir b) (hl : dir.length ≤ 4087) (hp : 37 ∉ dir)
    (h : runResource2 fs (some dir) fuel n = .ret (.OK, rows)) : ∀ r ∈ rows, r.values = [.ints (some [Spec.fileValue b])] := by
  unfold runResource2 at h
  rw [resourceURI_ok hl, Outcome.ret_bind] at h
  obtain ⟨c, l, hc, hr⟩ := readIn_simulate2 h
  exact resource_rows hs hd hl hp hc hr

/-- **C84, partial**, FMI 2.0, Model Exchange. -/
theorem C84_me_partial {M : Importer.Euler.Macros} (hs : SlashesMerge fs) (hd : HasResource fs dir b) (hl : dir.length ≤ 4087) (hp : 37 ∉ dir)
    (h : runResource2ME fs (some dir) M fuel n = .ret (.OK, rows)) : ∀ r ∈ rows, r.values = [.ints (some [Spec.fileValue b])] := by
  unfold runResource2ME at h
  rw [resourceURI_ok hl, Outcome.ret_bind] at h
  obtain ⟨c, l, hc, hr⟩ := readIn_me_simulate2 h
  exact resource_rows hs hd hl hp hc hr

/-- **C84 is violated** for long paths: the array for the URI is overrun. -/
theorem C84_violated_long {M : Importer.Euler.Macros} (hl : 4088 ≤ dir.length) :
    runResource2 (F := F) fs (some dir) fuel n = .ub ∧ runResource2ME (F := F) fs (some dir) M fuel n = .ub := by
  have : resourceURI (some dir) = .ub := by
    unfold resourceURI
    by_cases h : dir.length ≤ 4094
    · have e : (Resource.ascii "file://").length = 7 := by decide
      rw [resourcePath_ok h, Outcome.ret_bind]
      unfold strcat
      exact if_neg (by simp only [e, List.length_append, List.length_cons, List.length_nil]; omega)
    · have e : (Resource.ascii "/").length = 1 := by decide
      have : Importer.ResourceLocation.resourcePath (some dir) = .ub := by
        unfold Importer.ResourceLocation.resourcePath strcat
        exact if_neg (by rw [e]; omega)
      rw [this]; rfl
  unfold runResource2 runResource2ME
  rw [this]
  exact ⟨rfl, rfl⟩

/-- A file system with the two directories `/a%20b` and `/a b`, in which two slashes mean the same as one. -/
def twoDirectories : Resource.FileSystem := fun p =>
  let rec merge : List UInt8 → List UInt8
    | 47 :: 47 :: l => merge (47 :: l)
    | c :: l => c :: merge l
    | [] => []
  if merge p = Spec.ascii "/a%20b/y.txt" then some (some 97) else if merge p = Spec.ascii "/a b/y.txt" then some (some 98) else none

theorem merge_cons_ne {c : UInt8} {l : List UInt8} (h : c ≠ 47) : twoDirectories.merge (c :: l) = c :: twoDirectories.merge l := by
  rw [twoDirectories.merge.eq_def]
  split
  · next e => cases e; exact absurd rfl h
  · next e => cases e; rfl
  · next e => cases e

theorem merge_slash {l : List UInt8} (h : l.head? ≠ some 47) : twoDirectories.merge (47 :: l) = 47 :: twoDirectories.merge l := by
  rw [twoDirectories.merge.eq_def]
  split
  · next e => cases e; exact absurd rfl h
  · next e => cases e; rfl
  · next e => cases e

theorem merge_slashes {a b : List UInt8} : twoDirectories.merge (a ++ [47, 47] ++ b) = twoDirectories.merge (a ++ [47] ++ b) := by
  induction a with
  | nil => show twoDirectories.merge (47 :: 47 :: b) = twoDirectories.merge (47 :: b); rw [twoDirectories.merge]
  | cons c a ih =>
    by_cases hc : c = 47
    · subst hc
      cases a with
      | nil =>
        show twoDirectories.merge (47 :: 47 :: 47 :: b) = twoDirectories.merge (47 :: 47 :: b)
        rw [twoDirectories.merge]
      | cons d a =>
        by_cases hd : d = 47
        · subst hd
          show twoDirectories.merge (47 :: 47 :: (a ++ [47, 47] ++ b)) = twoDirectories.merge (47 :: 47 :: (a ++ [47] ++ b))
          rw [twoDirectories.merge, twoDirectories.merge]
          exact ih
        · show twoDirectories.merge (47 :: (d :: a ++ [47, 47] ++ b)) = twoDirectories.merge (47 :: (d :: a ++ [47] ++ b))
          rw [merge_slash (by simpa using hd), merge_slash (by simpa using hd), ih]
    · show twoDirectories.merge (c :: (a ++ [47, 47] ++ b)) = twoDirectories.merge (c :: (a ++ [47] ++ b))
      rw [merge_cons_ne hc, merge_cons_ne hc, ih]

theorem twoDirectories_merge : SlashesMerge twoDirectories := by
  intro a b
  unfold twoDirectories
  simp only [merge_slashes]

/-- **C84 is violated** for paths with `%`: the program passes the path of the resources directory `/a%20b` without encoding it, and the FMU reads the file in the directory `/a b`. -/
theorem C84_violated_percent : SlashesMerge twoDirectories ∧ HasResource twoDirectories (Spec.ascii "/a%20b") (some 97) ∧
    ∃ rows, runResource2 (F := XRat) twoDirectories (some (Spec.ascii "/a%20b")) 10 10 = .ret (.OK, rows) ∧
      rows.map (·.values) = [[.ints (some [98])], [.ints (some [98])]] := by
  refine ⟨twoDirectories_merge, ⟨by decide, by decide, by decide +kernel⟩, ?_⟩
  obtain ⟨⟨s, rows⟩, e, h⟩ := Outcome.exists_of_is (r := runResource2 (F := XRat) twoDirectories (some (Spec.ascii "/a%20b")) 10 10)
    (p := fun x => decide (x.1 = .OK ∧ x.2.map (·.values) = [[.ints (some [98])], [.ints (some [98])]])) (by decide +kernel)
  simp only [decide_eq_true_eq] at h
  exact ⟨rows, by rw [e, h.1], h.2⟩

/-- A run that meets the hypotheses of `C84_partial`. -/
example : HasResource twoDirectories (Spec.ascii "/a b") (some 98) ∧ 37 ∉ Spec.ascii "/a b" ∧
    (runResource2 (F := XRat) twoDirectories (some (Spec.ascii "/a b")) 10 10).is (fun x => decide (x.1 = .OK) && decide (x.2.length = 2)) = true ∧
    (runResource2ME (F := XRat) twoDirectories (some (Spec.ascii "/a b")) ⟨0, 0⟩ 10 10).is (fun x => decide (x.1 = .OK) && decide (x.2.length = 2)) = true :=
  ⟨⟨by decide, by decide, by decide +kernel⟩, by decide, by decide +kernel, by decide +kernel⟩

end FMI2

namespace FMI3
variable {F : Type} [Arith F] [HasInf F] {fs : Resource.FileSystem} {dir : List UInt8} {b : Option UInt8} {fuel n : Nat} {rows : List (Row F (Out F))}

theorem resource_rows (hd : HasResource fs dir b) (hl : dir.length ≤ 4089) {c} (hc : Resource.New3 (F := F) fs (some (dir ++ [47])) c)
    (hr : ReadIn (After (Resource.model true fs) fuel c) (FMI3.step (Resource.model true fs) fuel) (resource3 (F := F)).record rows) :
    ∀ r ∈ rows, r.values = [.values .int32 (some [Spec.fileValue b])] := by
  intro r hr'
  obtain ⟨w, w', ⟨ops, outs, hw⟩, ha⟩ := hr r hr'
  revert ha
  generalize r.values = vs
  intro ha
  cases ha with | cons e hn => cases hn with | nil =>
  have hst : w.inst.ctx.state ∈ FMI3.Spec.allowedIn (.get .int32) := by
    by_cases hst : w.inst.ctx.state ∈ FMI3.Spec.allowedIn (.get .int32)
    · exact hst
    · obtain ⟨w1, e1, -⟩ := C02_disallowed_call_refused (Resource.model true fs) fuel w (.get .int32 (some [1]) 1 (some [(0 : Int)]) 1) (fun f h => by cases h) hst
      rw [e1] at e
      cases e
  have h := Resource.C54_partial (fs := fs) (dir := dir ++ [47]) (b := b) (w₀ := .fresh c) hc ⟨rfl, fun _ => rfl, fun _ _ h => by simp [World.fresh] at h⟩ hw
    (by simp only [List.length_append, List.length_cons, List.length_nil]; omega)
    (by
      have e1 : Spec.ascii "/y.txt" = 47 :: Spec.ascii "y.txt" := by decide
      have hf := hd.file
      rw [e1] at hf
      rw [List.append_assoc]
      exact hf) hst
  obtain ⟨w1, e1⟩ := h fuel (0 : Int)
  rw [e1] at e
  cases e
  rfl

/-- **C84, partial**, FMI 3.0, Co-Simulation: in every run of the program that ends with the status OK every row contains the content of the file. Missing: longer paths, for
which the FMU or the program overruns an array (C54, `C84_violated_long`). -/
theorem C84_partial (hd : HasResource fs dir b) (hl : dir.length ≤ 4089) (h : runResource3 fs (some dir) fuel n = .ret (.OK, rows)) :
    ∀ r ∈ rows, r.values = [.values .int32 (some [Spec.fileValue b])] := by
  unfold runResource3 at h
  rw [resourcePath_ok (by omega), Outcome.ret_bind] at h
  obtain ⟨c, l, hc, hr⟩ := readIn_simulate3 h
  exact resource_rows hd hl (.cs hc) hr

/-- **C84, partial**, FMI 3.0, Model Exchange. -/
theorem C84_me_partial {M : Importer.Euler.Macros} (hd : HasResource fs dir b) (hl : dir.length ≤ 4089) (h : runResource3ME fs (some dir) M fuel n = .ret (.OK, rows)) :
    ∀ r ∈ rows, r.values = [.values .int32 (some [Spec.fileValue b])] := by
  unfold runResource3ME at h
  rw [resourcePath_ok (by omega), Outcome.ret_bind] at h
  obtain ⟨c, l, hc, hr⟩ := readIn_me_simulate3 h
  exact resource_rows hd hl (.me hc) hr

/-- **C84 is violated** for a path of 4095 bytes, the longest one that `realpath` gives: no place is left for the slash. -/
theorem C84_violated_long {M : Importer.Euler.Macros} (hl : dir.length = 4095) :
    runResource3 (F := F) fs (some dir) fuel n = .ub ∧ runResource3ME (F := F) fs (some dir) M fuel n = .ub := by
  have e : (Resource.ascii "/").length = 1 := by decide
  have : Importer.ResourceLocation.resourcePath (some dir) = .ub := by
    unfold Importer.ResourceLocation.resourcePath strcat
    exact if_neg (by rw [e]; omega)
  unfold runResource3 runResource3ME
  rw [this]
  exact ⟨rfl, rfl⟩

/-- Runs that meet the hypotheses; here `%` does not matter. -/
example : HasResource FMI2.twoDirectories (Spec.ascii "/a%20b") (some 97) ∧
    (runResource3 (F := XRat) FMI2.twoDirectories (some (Spec.ascii "/a%20b")) 10 10).is (fun x => decide (x.1 = .OK) && decide (x.2.length = 2)) = true ∧
    (runResource3ME (F := XRat) FMI2.twoDirectories (some (Spec.ascii "/a%20b")) ⟨0, 0⟩ 10 10).is (fun x => decide (x.1 = .OK) && decide (x.2.length = 2)) = true :=
  ⟨⟨by decide, by decide, by decide +kernel⟩, by decide +kernel, by decide +kernel⟩

end FMI3
end Verif
