import Verif.Lemmas.Merge

/-!
# C91: the merged FMU works on every platform

For Clocks and Roberts the last part of the property is false (`C91_violated_version`), and with several tags as well
(`C91_violated_tags`).
-/

namespace Verif.Merge
open Verif.Importer (System Architecture)
open Verif.Spec (ascii platformName libraryExtension BinaryOf)

theorem released_iff {major : Nat} (hm : major = 2 ∨ major = 3) (sys : System) (arch : Architecture) :
    Released major sys arch ↔ ⟨sys, arch⟩ ∈ platforms major := by
  rcases hm with rfl | rfl <;> cases sys <;> cases arch <;> simp [Released, platforms]

theorem platform_name {major : Nat} (hm : major = 2 ∨ major = 3) {sys : System} {arch : Architecture} (h : Released major sys arch) :
    fmiPlatform major ⟨sys, arch⟩ = some (ascii (platformName major sys arch)) := by
  rcases hm with rfl | rfl <;> cases sys <;> cases arch <;> first | exact h.elim | decide +kernel

theorem platform_inj {major : Nat} (hm : major = 2 ∨ major = 3) : ∀ p ∈ platforms major, ∀ q ∈ platforms major,
    fmiPlatform major p = fmiPlatform major q → p = q := by
  rcases hm with rfl | rfl <;> decide +kernel

/-- The files of the merged FMU that are not in `documentation`, but for the model description. -/
theorem holds_merged {w : World} {major : Nat} {f : List UInt8} {m : Entries} (h : mergeOne w major f = some m) {p : Path}
    (hd : p.head? ≠ some documentation)
    (hx : p ≠ modelDescription ∨ parameters.contains (f.take (f.length - 4)) = false) :
    ∃ dir, extractPlatforms w f (platforms major) [] = some dir ∧ ∀ c, Holds m p c ↔ Holds dir p c := by
  unfold mergeOne at h
  split at h
  · cases h
  next dir e =>
    refine ⟨dir, e, fun c => ?_⟩
    simp only at h
    split at h
    next hpar =>
      replace hx : p ≠ modelDescription := hx.resolve_right (by rw [hpar]; simp)
      split at h
      · cases h
      next r hr =>
        have hdoc : Holds (document dir r) p c ↔ Holds dir p c := by
          have hno : ∀ e ∈ (([documentation, bytes (chars! "result.svg")], r.plot) ::
              ([documentation, bytes (chars! "index.html")], r.page) :: r.drawings.map fun d => ([documentation, d.1], d.2) : Entries),
              e.1 ≠ p := by
            intro e he hp
            apply hd
            rw [← hp]
            simp only [List.mem_cons, List.mem_map] at he
            rcases he with rfl | rfl | ⟨d, -, rfl⟩ <;> rfl
          rw [document, holds_extractall]
          constructor
          · rintro (h | h)
            · exact absurd rfl (hno _ h.mem)
            · exact h.1
          · exact fun h => .inr ⟨h, hno⟩
        unfold setToolVersion at h
        split at h
        · cases h; exact hdoc
        · dsimp only at h
          generalize (if strip w.git.tags = [] then strip w.git.hash else strip w.git.tags) = v at h
          split at h
          · cases h; exact hdoc
          · split at h
            · cases h
            · cases h
              rw [holds_write, hdoc]
              exact ⟨fun h => h.elim (fun h => absurd h.1.symm hx) (·.2), fun h => .inr ⟨Ne.symm hx, h⟩⟩
    · cases h; exact Iff.rfl

/-- **C91, the libraries.** Whatever the FMUs of the platforms contain, as long as each has its files below `binaries` in the
directory of its own platform: if an FMU is merged, then on every platform for which it is released the importer finds exactly the same
files in the directory of that platform as in the FMU that was built for it. With `rest` the file name of the library these are the names
of `BinaryOf`, the path that `FMIPlatformBinaryPath` gives (`C71_partial`). -/
theorem C91_binaries {w : World} {major : Nat} (hm : major = 2 ∨ major = 3) {filename : List UInt8} {m : Entries}
    (built : ∀ p a, w.fmu p filename = some a → BuiltFor major p a) (h : mergeOne w major filename = some m)
    {sys : System} {arch : Architecture} (hr : Released major sys arch) :
    ∃ own, w.fmu ⟨sys, arch⟩ filename = some own ∧ ∀ rest c,
      Holds m (ascii "binaries" :: ascii (platformName major sys arch) :: rest) c ↔
        Holds own (ascii "binaries" :: ascii (platformName major sys arch) :: rest) c := by
  have hb : ascii "binaries" ≠ documentation := by decide +kernel
  have hin := (released_iff hm sys arch).1 hr
  have hplace : ∀ rest, ∃ dir, extractPlatforms w filename (platforms major) [] = some dir ∧ ∀ c,
      Holds m (ascii "binaries" :: ascii (platformName major sys arch) :: rest) c ↔
        Holds dir (ascii "binaries" :: ascii (platformName major sys arch) :: rest) c := fun rest =>
    holds_merged h (by simpa using hb) (.inl (by simp [modelDescription]))
  obtain ⟨dir, e, -⟩ := hplace []
  obtain ⟨own, ho, -⟩ := (platforms_holds (p := []) e).2 _ hin
  have hone : ∀ rest c, Holds dir (ascii "binaries" :: ascii (platformName major sys arch) :: rest) c →
      Holds own (ascii "binaries" :: ascii (platformName major sys arch) :: rest) c := by
    intro rest c hc
    rcases holds_platforms e hc with ⟨q, hq, a, ha, hac⟩ | hc
    · have h1 := built q a ha _ hac.mem _ _ rfl
      have : q = ⟨sys, arch⟩ := platform_inj hm q hq _ hin (by rw [h1, platform_name hm hr])
      subst this
      rw [ho] at ha
      cases ha
      exact hac
    · exact absurd hc holds_nil
  refine ⟨own, ho, fun rest c => ?_⟩
  obtain ⟨dir', e', h'⟩ := hplace rest
  rw [e] at e'
  cases e'
  rw [h']
  refine ⟨hone rest c, fun hc => ?_⟩
  obtain ⟨own', ho', hx⟩ := (platforms_holds (p := (ascii "binaries" :: ascii (platformName major sys arch) :: rest)) e).2 _ hin
  rw [ho] at ho'
  cases ho'
  obtain ⟨d, hd⟩ := hx ⟨c, hc⟩
  rw [hc.unique (hone rest d hd)]
  exact hd

/-- **C91, the other files.** Outside of `documentation` and but for the model description, a merged FMU has the files of all FMUs
that were built for the platforms and no others, each as it is in one of them. -/
theorem C91_files {w : World} {major : Nat} (hm : major = 2 ∨ major = 3) {filename : List UInt8} {m : Entries}
    (h : mergeOne w major filename = some m) {p : Path} (hd : p.head? ≠ some (ascii "documentation"))
    (hx : p ≠ [ascii "modelDescription.xml"]) :
    (∀ c, Holds m p c → ∃ sys arch a, Released major sys arch ∧ w.fmu ⟨sys, arch⟩ filename = some a ∧ Holds a p c) ∧
    ∀ sys arch, Released major sys arch → ∃ a, w.fmu ⟨sys, arch⟩ filename = some a ∧ ∀ c, Holds a p c → ∃ d, Holds m p d := by
  have e1 : ascii "documentation" = documentation := by decide +kernel
  have e2 : [ascii "modelDescription.xml"] = modelDescription := by decide +kernel
  obtain ⟨dir, e, hdir⟩ := holds_merged h (e1 ▸ hd) (.inl (e2 ▸ hx))
  refine ⟨fun c hc => ?_, fun sys arch hr => ?_⟩
  · rcases holds_platforms e ((hdir c).1 hc) with ⟨⟨sys, arch⟩, hq, a, ha, hac⟩ | hc
    · exact ⟨sys, arch, a, (released_iff hm sys arch).2 hq, ha, hac⟩
    · exact absurd hc holds_nil
  · obtain ⟨a, ha, hx⟩ := (platforms_holds (p := p) e).2 _ ((released_iff hm sys arch).1 hr)
    refine ⟨a, ha, fun c hc => ?_⟩
    obtain ⟨d, hd⟩ := hx ⟨c, hc⟩
    exact ⟨d, (hdir d).2 hd⟩

theorem plotted_iff {f : List UInt8} (h : Plotted f) : parameters.contains (f.take (f.length - 4)) = true := by
  obtain ⟨model, hm, rfl⟩ := h
  simp only [List.mem_cons, List.not_mem_nil, or_false] at hm
  rcases hm with rfl | rfl | rfl | rfl | rfl | rfl | rfl <;> decide +kernel

/-- **C91, the version, partial.** If the repository is clean and git names a version, then the model description in each of the seven
merged FMUs with a plot is the one of the platform FMUs, but with this version instead of the words "development build", followed by the
time of the merge. Missing: Clocks and Roberts, and several tags at the same commit. -/
theorem C91_version_partial {w : World} {major : Nat} {filename : List UInt8} {m : Entries} (hp : Plotted filename)
    (h : mergeOne w major filename = some m) (hclean : w.git.status = []) {v : List UInt8} (hv : Version w.git v)
    {t before after : List UInt8} (ht : ∀ p a, w.fmu p filename = some a → Holds a [ascii "modelDescription.xml"] t) (hcr : 13 ∉ t)
    (ho : Once t before (ascii "\"Reference FMUs (development build)\"") after) :
    Holds m [ascii "modelDescription.xml"]
      (before ++ (ascii "\"Reference FMUs (" ++ v ++ ascii ")\"\n  generationDateAndTime=\"" ++ w.date ++ ascii "\"") ++ after) := by
  have e2 : [ascii "modelDescription.xml"] = modelDescription := by decide +kernel
  have e3 : ascii "\"Reference FMUs (development build)\"" = development := by decide +kernel
  have e4 : ascii "\"Reference FMUs (" ++ v ++ ascii ")\"\n  generationDateAndTime=\"" ++ w.date ++ ascii "\"" = generation v w.date := by
    unfold generation
    rw [show ascii "\"Reference FMUs (" = bytes (chars! "\"Reference FMUs (") by decide +kernel,
      show ascii ")\"\n  generationDateAndTime=\"" = bytes (chars! ")\"\n  generationDateAndTime=\"") by decide +kernel,
      show ascii "\"" = bytes (chars! "\"") by decide +kernel]
  rw [e4, e2]
  rw [e2] at ht
  rw [e3] at ho
  unfold mergeOne at h
  split at h
  · cases h
  next dir e =>
    simp only [plotted_iff hp, if_pos] at h
    split at h
    · cases h
    next r hr =>
      have hu : Unique (document dir r) := unique_extractall (unique_platforms (by intro p c d h; simp at h) e)
      have hdir : Holds dir modelDescription t := by
        obtain ⟨a, ha, hx⟩ := (platforms_holds (p := modelDescription) e).2 ⟨.windows, .x86⟩ (by simp [platforms])
        obtain ⟨c, hc⟩ := hx ⟨t, ht _ a ha⟩
        rcases holds_platforms e hc with ⟨q, hq, b, hb, hbc⟩ | hn
        · rw [(ht q b hb).unique hbc]; exact hc
        · exact absurd hn holds_nil
      have hdoc : Holds (document dir r) modelDescription t := by
        refine holds_extractall.2 (.inr ⟨hdir, fun e he hp => ?_⟩)
        have := congrArg List.length hp
        simp only [List.mem_cons, List.mem_map] at he
        rcases he with rfl | rfl | ⟨d, -, rfl⟩ <;> simp [modelDescription] at this
      have hread : read (document dir r) modelDescription = some t := holds_read (fun d hd => hu _ _ _ hd hdoc.mem) hdoc
      obtain ⟨hv0, hvc, hvt⟩ := hv
      have hver : (if strip w.git.tags = [] then strip w.git.hash else strip w.git.tags) = v := by
        rcases hvt with e | ⟨e, e'⟩
        · rw [e, strip_word hv0 hvc, if_neg hv0]
        · rw [e, e', strip_word hv0 hvc]; rfl
      unfold setToolVersion at h
      simp only [hclean, hver, if_neg hv0, hread, show strip [] = [] from rfl, ne_eq, not_true_eq_false, if_false] at h
      cases h
      rw [holds_write]
      refine .inl ⟨rfl, ?_⟩
      rw [universal_id hcr, replace_once (by decide) ho]

/-- **C91, the documentation.** Each of the seven merged FMUs has the plot and the page, unless a drawing of the model has the same
name. -/
theorem C91_documentation {w : World} {major : Nat} {filename : List UInt8} {m : Entries} (hp : Plotted filename)
    (h : mergeOne w major filename = some m) : ∃ model r, filename = model ++ ascii ".fmu" ∧ w.report model = some r ∧
      (ascii "result.svg" ∉ r.drawings.map (·.1) → Holds m [ascii "documentation", ascii "result.svg"] r.plot) ∧
      (ascii "index.html" ∉ r.drawings.map (·.1) → Holds m [ascii "documentation", ascii "index.html"] r.page) := by
  have hpar := plotted_iff hp
  obtain ⟨model, -, rfl⟩ := hp
  have htake : (ascii model ++ ascii ".fmu").take ((ascii model ++ ascii ".fmu").length - 4) = ascii model := by
    have h4 : (ascii ".fmu").length = 4 := by decide +kernel
    rw [List.length_append, h4, Nat.add_sub_cancel]
    simp
  unfold mergeOne at h
  split at h
  · cases h
  next dir e =>
    simp only [hpar, if_pos] at h
    rw [htake] at h
    split at h
    · cases h
    next r hr =>
      refine ⟨ascii model, r, rfl, hr, ?_⟩
      have keep : ∀ {n c}, Holds (document dir r) [ascii "documentation", n] c → Holds m [ascii "documentation", n] c := by
        intro n c hc
        unfold setToolVersion at h
        split at h
        · cases h; exact hc
        · dsimp only at h
          generalize (if strip w.git.tags = [] then strip w.git.hash else strip w.git.tags) = v at h
          split at h
          · cases h; exact hc
          · split at h
            · cases h
            · cases h
              exact holds_write.2 (.inr ⟨by simp [modelDescription], hc⟩)
      have e1 : ascii "documentation" = documentation := by decide +kernel
      have e2 : ascii "result.svg" = bytes (chars! "result.svg") := by decide +kernel
      have e3 : ascii "index.html" = bytes (chars! "index.html") := by decide +kernel
      have e4 : bytes (chars! "index.html") ≠ bytes (chars! "result.svg") := by decide +kernel
      have no : ∀ {n : List UInt8}, n ∉ r.drawings.map (·.1) →
          ∀ e ∈ (r.drawings.map fun d => ([documentation, d.1], d.2) : Entries), e.1 ≠ [documentation, n] := by
        intro n hn e he hx
        obtain ⟨d, hd, rfl⟩ := List.mem_map.1 he
        simp only [List.cons.injEq, and_true, true_and] at hx
        exact hn (List.mem_map.2 ⟨d, hd, hx⟩)
      refine ⟨fun hn => keep ?_, fun hn => keep ?_⟩
      · rw [e1, e2]
        rw [e2] at hn
        refine holds_extractall.2 (.inl (holds_cons.2 (.inr ⟨⟨rfl, rfl⟩, fun e he => ?_⟩)))
        rcases List.mem_cons.1 he with rfl | he
        · simpa using e4
        · exact no hn e he
      · rw [e1, e3]
        rw [e3] at hn
        exact holds_extractall.2 (.inl (holds_cons.2 (.inl (holds_cons.2 (.inr ⟨⟨rfl, rfl⟩, no hn⟩)))))

/-- **C91, the script.** If the script does not fail, it merges exactly the files with the extension `.fmu` in the directory of the
64-bit Windows platform, each on its own. -/
theorem C91_script {w : World} {major : Nat} {result : List (List UInt8 × Entries)} (h : mergeFmus w major = some result) :
    (∀ f m, (f, m) ∈ result → f ∈ w.listing ∧ (∃ x, f = x ++ ascii ".fmu") ∧ mergeOne w major f = some m) ∧
    ∀ x, x ++ ascii ".fmu" ∈ w.listing → ∃ m, (x ++ ascii ".fmu", m) ∈ result := by
  have e1 : ascii ".fmu" = bytes (chars! ".fmu") := by decide +kernel
  rw [e1]
  unfold mergeFmus at h
  generalize w.listing = l at h
  induction l generalizing result with
  | nil => cases h; simp
  | cons f fs ih =>
    unfold mergeAll at h
    split at h
    next hs =>
      obtain ⟨y, hy⟩ := List.isSuffixOf_iff_suffix.1 hs
      split at h
      · cases h
      next m hm =>
        obtain ⟨rest, hr, rfl⟩ := Option.map_eq_some_iff.1 h
        obtain ⟨h1, h2⟩ := ih hr
        refine ⟨fun g n hg => ?_, fun x hx => ?_⟩
        · rcases List.mem_cons.1 hg with e | hg
          · cases e; exact ⟨List.mem_cons_self, ⟨y, hy.symm⟩, hm⟩
          · obtain ⟨a, b, c⟩ := h1 g n hg
            exact ⟨List.mem_cons_of_mem _ a, b, c⟩
        · rcases List.mem_cons.1 hx with e | hx
          · exact ⟨m, by rw [e]; exact List.mem_cons_self⟩
          · obtain ⟨n, hn⟩ := h2 x hx
            exact ⟨n, List.mem_cons_of_mem _ hn⟩
    next hs =>
      obtain ⟨h1, h2⟩ := ih h
      refine ⟨fun g n hg => ?_, fun x hx => ?_⟩
      · obtain ⟨a, b, c⟩ := h1 g n hg
        exact ⟨List.mem_cons_of_mem _ a, b, c⟩
      · rcases List.mem_cons.1 hx with e | hx
        · exact absurd (List.isSuffixOf_iff_suffix.2 ⟨x, e⟩) hs
        · exact h2 x hx

/-- **C91 is violated** for Clocks and Roberts: whatever git says, the model description in the merged FMU is the one of a platform FMU,
with the words "development build". -/
theorem C91_violated_version {w : World} {major : Nat} {model : String} (hx : model = "Clocks" ∨ model = "Roberts") {m : Entries}
    (h : mergeOne w major (ascii model ++ ascii ".fmu") = some m) {t : List UInt8}
    (ht : ∀ p a, w.fmu p (ascii model ++ ascii ".fmu") = some a → Holds a [ascii "modelDescription.xml"] t) :
    Holds m [ascii "modelDescription.xml"] t := by
  have e2 : [ascii "modelDescription.xml"] = modelDescription := by decide +kernel
  rw [e2] at ht ⊢
  have hp : parameters.contains ((ascii model ++ ascii ".fmu").take ((ascii model ++ ascii ".fmu").length - 4)) = false := by
    rcases hx with rfl | rfl <;> decide +kernel
  obtain ⟨dir, e, hdir⟩ := holds_merged h (p := modelDescription) (by decide +kernel) (.inr hp)
  obtain ⟨a, ha, hy⟩ := (platforms_holds (p := modelDescription) e).2 ⟨.windows, .x86⟩ (by simp [platforms])
  obtain ⟨c, hc⟩ := hy ⟨t, ht _ a ha⟩
  rw [hdir]
  rcases holds_platforms e hc with ⟨q, hq, b, hb, hbc⟩ | hn
  · rw [(ht q b hb).unique hbc]; exact hc
  · exact absurd hn holds_nil

/-- An FMU with a library and a model description for every platform, and a drawing. -/
def sample : World where
  listing := [ascii "readme.txt", ascii "Stair.fmu", ascii "Clocks.fmu"]
  fmu p f := if f = ascii "Stair.fmu" ∨ f = ascii "Clocks.fmu" then
      some [([ascii "modelDescription.xml"], ascii "<a generationTool=\"Reference FMUs (development build)\" b=\"\"/>"),
        ([ascii "binaries", (fmiPlatform 3 p).getD [], ascii "lib"], [1, if p.sys = .linux then 2 else 3, if p.arch = .x86 then 4 else 5])]
    else none
  report f := if f = ascii "Stair" then some ⟨[7], [8], [(ascii "a.svg", [9])]⟩ else none
  git := ⟨[], ascii "v1\n", ascii "0ab12\n"⟩
  date := ascii "2026"

theorem sample_built (p : Platform) (f : List UInt8) (a : Entries) (h : sample.fmu p f = some a) : BuiltFor 3 p a := by
  simp only [sample] at h
  split at h
  · cases h
    intro e he dir rest hp
    simp only [List.mem_cons, List.not_mem_nil, or_false] at he
    rcases he with rfl | rfl
    · simp at hp
    · simp only [List.cons.injEq] at hp
      rw [← hp.2.1]
      rfl
  · cases h

/-- The hypotheses of `C91_binaries`, `C91_files`, `C91_version_partial` and `C91_script` can be met. -/
example : ∃ m, mergeOne sample 3 (ascii "Stair.fmu") = some m ∧ Plotted (ascii "Stair.fmu") ∧ Version sample.git (ascii "v1") ∧
    m.length = 10 ∧
    Holds m [ascii "modelDescription.xml"]
      (ascii "<a generationTool=\"Reference FMUs (v1)\"\n  generationDateAndTime=\"2026\" b=\"\"/>") ∧
    Released 3 .linux .aarch64 ∧ Holds m [ascii "binaries", ascii "aarch64-linux", ascii "lib"] [1, 2, 5] := by
  refine ⟨(mergeOne sample 3 (ascii "Stair.fmu")).getD [], by decide +kernel, ⟨"Stair", by simp, by decide +kernel⟩,
    ⟨by decide +kernel, by decide +kernel, .inl (by decide +kernel)⟩, by decide +kernel,
    ⟨((mergeOne sample 3 (ascii "Stair.fmu")).getD []).take 9, [], by decide +kernel, by simp⟩, trivial,
    ⟨((mergeOne sample 3 (ascii "Stair.fmu")).getD []).take 4, ((mergeOne sample 3 (ascii "Stair.fmu")).getD []).drop 5,
      by decide +kernel, by decide +kernel⟩⟩

/-- The hypotheses of `C91_violated_version` can be met, and the words are still there. -/
example : ∃ m, mergeOne sample 3 (ascii "Clocks" ++ ascii ".fmu") = some m ∧ m.length = 7 ∧
    Holds m [ascii "modelDescription.xml"] (ascii "<a generationTool=\"Reference FMUs (development build)\" b=\"\"/>") := by
  refine ⟨(mergeOne sample 3 (ascii "Clocks.fmu")).getD [], by decide +kernel, by decide +kernel,
    ⟨((mergeOne sample 3 (ascii "Clocks.fmu")).getD []).take 5, ((mergeOne sample 3 (ascii "Clocks.fmu")).getD []).drop 6,
      by decide +kernel, by decide +kernel⟩⟩

example : ((mergeFmus sample 3).getD []).map (·.1) = [ascii "Stair.fmu", ascii "Clocks.fmu"] := by decide +kernel

/-- **C91 is violated** if git lists several tags: they are all in the attribute, with the line end between them. -/
theorem C91_violated_tags : ∃ m, mergeOne { sample with git := ⟨[], ascii "v1\nv2\n", []⟩ } 3 (ascii "Stair.fmu") = some m ∧
    Holds m [ascii "modelDescription.xml"]
      (ascii "<a generationTool=\"Reference FMUs (v1\nv2)\"\n  generationDateAndTime=\"2026\" b=\"\"/>") := by
  refine ⟨(mergeOne { sample with git := ⟨[], ascii "v1\nv2\n", []⟩ } 3 (ascii "Stair.fmu")).getD [], by decide +kernel,
    ⟨((mergeOne { sample with git := ⟨[], ascii "v1\nv2\n", []⟩ } 3 (ascii "Stair.fmu")).getD []).take 9, [], by decide +kernel, by simp⟩⟩

end Verif.Merge
