import Verif.Spec.BinaryPath
import Verif.Lemmas.LogBuffer

/-!
# C71: `FMIPlatformBinaryPath` finds the binary of the FMU

The full statement is false for an empty directory (`C71_violated_empty`) and, but for Windows, for a directory whose name ends with a
backslash (`C71_violated_backslash`).
-/

namespace Verif.Importer
open Verif Spec

theorem joins_sep {sys : System} {dir name s : List UInt8} {c : UInt8} (hs : s = [c]) (hc : c ∈ separators sys)
    (hd : ∀ a s, dir = a ++ [s] → s ∉ separators sys) : Joins sys dir name (dir ++ s ++ name) :=
  .inr ⟨hd, c, hc, by simp [hs]⟩

theorem not_sep {sys : System} {dir : List UInt8} {t : String} (h : ∃ c, (ascii t).getLast? = some c ∧ c ∉ separators sys) :
    ∀ a s, dir ++ ascii t = a ++ [s] → s ∉ separators sys := by
  obtain ⟨c, h, hc⟩ := h
  intro a s e
  have := congrArg List.getLast? e
  rw [List.getLast?_append, h] at this
  simp at this
  exact this ▸ hc

/-- **C71, partial.** For every system and architecture, every directory name that is not empty (and does not end with a backslash,
unless on Windows), every model identifier, major version and buffer of at least the announced size: `FMIPlatformBinaryPath` returns
without leaving the announced part of the buffer. If there is room for the path of the binary and its terminator, it reports OK and the
buffer holds that path, otherwise it reports an error. Missing: the other directory names, for which it is false. -/
theorem C71_partial (sys : System) (arch : Architecture) {dir id buf : List UInt8} {major size : Nat} (hd : dir ≠ [])
    (hb : sys = .windows ∨ ∀ a, dir ≠ a ++ [92]) (hd0 : 0 ∉ dir) (hi0 : 0 ∉ id) (hm : major = 1 ∨ major = 2 ∨ major = 3)
    (hbuf : size ≤ buf.length) :
    ∃ path s buf', BinaryOf sys arch major dir id path ∧
      platformBinaryPath sys arch dir id major (some buf) size = .ret (s, some buf') ∧
      buf'.length = buf.length ∧ buf'.drop size = buf.drop size ∧
      (s = .OK ↔ path.length < size) ∧ (s = .OK ∨ s = .Error) ∧ (s = .OK → HoldsString buf' path) := by
  obtain ⟨a, last, rfl⟩ : ∃ a last, dir = a ++ [last] := ⟨dir.dropLast, dir.getLast hd, (List.dropLast_concat_getLast hd).symm⟩
  obtain ⟨sep, hsep, hcs⟩ : ∃ c, ascii sys.separator = [c] ∧ c ∈ separators sys := by
    cases sys <;> exact ⟨_, rfl, by decide +kernel⟩
  generalize hplat : (if major < 3 then ascii sys.short ++ ascii arch.bits else ascii arch.name ++ ascii "-" ++ ascii sys.name) = platform
  have hp : platform = Spec.ascii (platformName major sys arch) := by
    rw [← hplat]
    rcases hm with rfl | rfl | rfl <;> cases sys <;> cases arch <;> decide +kernel
  generalize hopt : (if last ≠ 47 ∧ last ≠ 92 then ascii sys.separator else []) = opt
  have h1 : Joins sys (a ++ [last]) (ascii "binaries") (a ++ [last] ++ opt ++ ascii "binaries") := by
    rw [← hopt]
    split
    · next h =>
      refine joins_sep hsep hcs fun a' s e => ?_
      rw [(List.append_singleton_inj.1 e).2] at h
      cases sys <;> simp [separators, h]
    · next h =>
      refine .inl ⟨a, last, rfl, ?_, by simp⟩
      rcases hb with rfl | hb
      · simp only [separators, List.mem_cons, List.not_mem_nil, or_false]
        by_cases h47 : last = 47
        · exact .inl h47
        · exact .inr (Decidable.not_not.1 fun h92 => h ⟨h47, h92⟩)
      · have : last = 47 := Decidable.not_not.1 fun h47 => h ⟨h47, fun h92 => hb a (by rw [h92])⟩
        rw [this]; cases sys <;> decide
  have h2 : Joins sys (a ++ [last] ++ opt ++ ascii "binaries") platform
      (a ++ [last] ++ opt ++ ascii "binaries" ++ ascii sys.separator ++ platform) :=
    joins_sep hsep hcs (not_sep ⟨115, by decide +kernel, by cases sys <;> decide⟩)
  have h3 : Joins sys (a ++ [last] ++ opt ++ ascii "binaries" ++ ascii sys.separator ++ platform) (id ++ ascii sys.extension)
      (a ++ [last] ++ opt ++ ascii "binaries" ++ ascii sys.separator ++ platform ++ ascii sys.separator ++ (id ++ ascii sys.extension)) := by
    refine joins_sep hsep hcs ?_
    rw [hp]
    refine not_sep ?_
    rcases hm with rfl | rfl | rfl <;> cases sys <;> cases arch <;> exact ⟨_, rfl, by decide⟩
  generalize htext : a ++ [last] ++ opt ++ ascii "binaries" ++ ascii sys.separator ++ platform ++ ascii sys.separator ++
    id ++ ascii sys.extension = text
  have h0 : 0 ∉ text := by
    rw [← htext, hp, ← hopt]
    simp only [List.mem_append, not_or]
    simp only [List.mem_append, not_or] at hd0
    refine ⟨⟨⟨⟨⟨⟨⟨hd0, ?_⟩, by decide +kernel⟩, by cases sys <;> decide +kernel⟩, ?_⟩, by cases sys <;> decide +kernel⟩, hi0⟩,
      by cases sys <;> decide +kernel⟩
    · split
      · cases sys <;> decide +kernel
      · simp
    · rcases hm with rfl | rfl | rfl <;> cases sys <;> cases arch <;> decide +kernel
  have hbin : BinaryOf sys arch major (a ++ [last]) id text := by
    rw [← htext]
    rw [List.append_assoc _ id]
    rw [hp] at h2 h3 ⊢
    have hx : ascii sys.extension = Spec.ascii (libraryExtension sys) := by cases sys <;> rfl
    rw [hx] at h3 ⊢
    exact .next h1 (.next h2 (.next h3 .here))
  have hcall : platformBinaryPath sys arch (a ++ [last]) id major (some buf) size =
      (snprintf (some buf) 0 size text >>- fun buffer => if text.length ≥ size then .ret (.Error, buffer) else .ret (.OK, buffer)) := by
    simp only [platformBinaryPath, List.getLast?_append, List.getLast?_singleton, Option.some_or, hplat, hopt, htext]
  rw [hcall]
  unfold snprintf
  by_cases hz : size = 0
  · subst hz
    exact ⟨text, .Error, buf, hbin, by simp, rfl, rfl, by simp, .inr rfl, by simp⟩
  · rw [if_neg hz]
    have hlen : (text.take (size - 1) ++ [(0 : UInt8)]).length ≤ size := by simp; omega
    rw [writeN_eq _ _ _ (by omega)]
    simp only [Outcome.ret_bind, List.take_zero, List.nil_append, Nat.zero_add]
    have hl' : (text.take (size - 1) ++ [0] ++ buf.drop (text.take (size - 1) ++ [(0 : UInt8)]).length).length = buf.length := by
      simp at *; omega
    have hdrop : (text.take (size - 1) ++ [0] ++ buf.drop (text.take (size - 1) ++ [(0 : UInt8)]).length).drop size = buf.drop size := by
      rw [List.drop_append, List.drop_of_length_le hlen, List.nil_append, List.drop_drop]
      congr 1; omega
    by_cases hs : text.length ≥ size
    · exact ⟨text, .Error, _, hbin, by rw [if_pos hs], hl', hdrop, by simp; omega, .inr rfl, by simp⟩
    · refine ⟨text, .OK, _, hbin, by rw [if_neg hs], hl', hdrop, by simp; omega, .inl rfl, fun _ =>
        ⟨h0, buf.drop (text.take (size - 1) ++ [(0 : UInt8)]).length, ?_⟩⟩
      rw [List.take_of_length_le (by omega)]
      simp only [List.append_assoc, List.singleton_append]

/-- **C71 is violated** for an empty directory name: the character before the string is read. -/
theorem C71_violated_empty (sys : System) (arch : Architecture) (id : List UInt8) (major : Nat) (buf : Ptr UInt8) (size : Nat) :
    platformBinaryPath sys arch [] id major buf size = .ub := rfl

/-- **C71 is violated** for directory names that end with a backslash, which is an ordinary character on Linux: the path that is
reported with OK is not the one of the binary in that directory. -/
theorem C71_violated_backslash : ∃ buf', platformBinaryPath .linux .x86_64 (ascii "/tmp/a\\") (ascii "Stair") 3
      (some (List.replicate 64 0)) 64 = .ret (.OK, some buf') ∧
    HoldsString buf' (ascii "/tmp/a\\binaries/x86_64-linux/Stair.so") ∧
    ¬ BinaryOf .linux .x86_64 3 (ascii "/tmp/a\\") (ascii "Stair") (ascii "/tmp/a\\binaries/x86_64-linux/Stair.so") := by
  refine ⟨ascii "/tmp/a\\binaries/x86_64-linux/Stair.so" ++ List.replicate 27 0, by decide +kernel,
    ⟨by decide +kernel, List.replicate 26 0, by decide +kernel⟩, ?_⟩
  intro h
  cases h with | next h1 h2 =>
  obtain ⟨b, s, e, hs, -⟩ | ⟨-, s, hs, rfl⟩ := h1
  · have := congrArg List.getLast? e
    rw [List.getLast?_append, List.getLast?_singleton, Option.some_or] at this
    have e' : (ascii "/tmp/a\\").getLast? = some 92 := by decide +kernel
    rw [e'] at this
    cases this
    revert hs; decide
  · have grows : ∀ {sys dir names path}, Reaches sys dir names path → ∃ r, path = dir ++ r := by
      intro sys dir names path h
      induction h with
      | here => exact ⟨[], by simp⟩
      | next hj _ ih =>
        obtain ⟨r, rfl⟩ := ih
        obtain ⟨_, _, _, _, rfl⟩ | ⟨_, _, _, rfl⟩ := hj
        · exact ⟨_, List.append_assoc ..⟩
        · exact ⟨_, List.append_assoc ..⟩
    obtain ⟨r, e⟩ := grows h2
    have e := congrArg (·[7]?) e
    have e1 : (ascii "/tmp/a\\binaries/x86_64-linux/Stair.so")[7]? = some 98 := by decide +kernel
    simp only [e1] at e
    rw [List.getElem?_append_left (by simp [Spec.ascii, ascii]), List.getElem?_append_right (by decide +kernel)] at e
    have e2 : (7 : Nat) - (ascii "/tmp/a\\").length = 0 := by decide +kernel
    rw [e2] at e
    simp [separators] at hs
    subst hs
    simp at e

/-- The path of the FMI 2.0 binary of BouncingBall on Windows, in a buffer with room to spare, and in one that is too short. -/
example : (∃ buf', platformBinaryPath .windows .x86_64 (ascii "C:\\fmu") (ascii "BouncingBall") 2 (some (List.replicate 64 0)) 64 =
      .ret (.OK, some buf') ∧ HoldsString buf' (ascii "C:\\fmu\\binaries\\win64\\BouncingBall.dll")) ∧
    ∃ buf', platformBinaryPath .windows .x86_64 (ascii "C:\\fmu") (ascii "BouncingBall") 2 (some (List.replicate 38 0)) 38 =
      .ret (.Error, buf') :=
  ⟨⟨ascii "C:\\fmu\\binaries\\win64\\BouncingBall.dll" ++ List.replicate 26 0, by decide +kernel, by decide +kernel, List.replicate 25 0,
    by decide +kernel⟩, some (ascii "C:\\fmu\\binaries\\win64\\BouncingBall.dl" ++ [0]), by decide +kernel⟩

end Verif.Importer
