import Verif.Props.C91
import Verif.Spec.Release

/-!
# C91: the release is complete
-/

namespace Verif.Merge
open Verif.Spec (ascii)

theorem read_isSome {dir : Entries} {p : Path} (h : ∃ c, Holds dir p c) : ∃ t, read dir p = some t := by
  obtain ⟨e, he, hp⟩ := exists_holds.1 h
  unfold read
  cases hf : dir.find? fun e => e.1 = p with
  | none => exact absurd hp (by simpa using List.find?_eq_none.1 hf e he)
  | some z => exact ⟨z.2, rfl⟩

theorem extractPlatforms_isSome {w : World} {f : List UInt8} : ∀ {ps : List Platform} {dir : Entries},
    (∀ p ∈ ps, ∃ a, w.fmu p f = some a) → ∃ m, extractPlatforms w f ps dir = some m
  | [], dir, _ => ⟨dir, rfl⟩
  | p :: ps, dir, h => by
    obtain ⟨a, ha⟩ := h p List.mem_cons_self
    unfold extractPlatforms
    rw [ha]
    exact extractPlatforms_isSome fun q hq => h q (List.mem_cons_of_mem _ hq)

theorem platforms_built {major : Nat} (hm : major = 2 ∨ major = 3) : ∀ p ∈ platforms major, p ∈ choices ∧ major ∈ buildVersions p := by
  rcases hm with rfl | rfl <;> decide +kernel

theorem mergeOne_isSome {w : World} {major : Nat} (hm : major = 2 ∨ major = 3) (hb : FromBuild w major) {model : List UInt8}
    (hn : model ∈ modelNames major) (hr : Plotted (model ++ ascii ".fmu") → ∃ r, w.report model = some r) :
    ∃ m, mergeOne w major (model ++ ascii ".fmu") = some m := by
  have hall := fun p hp => hb.fmu p (platforms_built hm p hp).1 (platforms_built hm p hp).2 model hn
  obtain ⟨dir, hd⟩ := extractPlatforms_isSome (w := w) (f := model ++ ascii ".fmu") (ps := platforms major) (dir := [])
    fun p hp => let ⟨a, h, _⟩ := hall p hp; ⟨a, h⟩
  have htake : (model ++ ascii ".fmu").take ((model ++ ascii ".fmu").length - 4) = model := by
    have h4 : (ascii ".fmu").length = 4 := by decide +kernel
    rw [List.length_append, h4, Nat.add_sub_cancel]
    simp
  unfold mergeOne
  rw [hd]
  simp only [htake]
  by_cases hp : parameters.contains model = true
  · rw [if_pos hp]
    have hpl : Plotted (model ++ ascii ".fmu") := by
      simp only [parameters, List.contains_iff_mem, List.mem_cons, List.not_mem_nil, or_false] at hp
      rcases hp with rfl | rfl | rfl | rfl | rfl | rfl | rfl
      · exact ⟨"BouncingBall", by simp, by decide +kernel⟩
      · exact ⟨"Dahlquist", by simp, by decide +kernel⟩
      · exact ⟨"Feedthrough", by simp, by decide +kernel⟩
      · exact ⟨"StateSpace", by simp, by decide +kernel⟩
      · exact ⟨"Resource", by simp, by decide +kernel⟩
      · exact ⟨"Stair", by simp, by decide +kernel⟩
      · exact ⟨"VanDerPol", by simp, by decide +kernel⟩
    obtain ⟨r, hr⟩ := hr hpl
    rw [hr]
    show ∃ m, setToolVersion w.git w.date (document dir r) = some m
    have e2 : [ascii "modelDescription.xml"] = modelDescription := by decide +kernel
    have hdoc : ∃ t, read (document dir r) modelDescription = some t := by
      refine read_isSome ?_
      obtain ⟨a, ha, t, ht⟩ := hall ⟨.windows, .x86⟩ (by simp [platforms])
      obtain ⟨b, hb', hx⟩ := (platforms_holds (p := modelDescription) hd).2 ⟨.windows, .x86⟩ (by simp [platforms])
      rw [ha] at hb'
      cases hb'
      obtain ⟨c, hc⟩ := hx ⟨t, e2 ▸ ht⟩
      refine ⟨c, holds_extractall.2 (.inr ⟨hc, fun e he hp => ?_⟩)⟩
      have := congrArg List.length hp
      simp only [List.mem_cons, List.mem_map] at he
      rcases he with rfl | rfl | ⟨d, -, rfl⟩ <;> simp [modelDescription] at this
    obtain ⟨t, ht⟩ := hdoc
    unfold setToolVersion
    split
    · exact ⟨_, rfl⟩
    · dsimp only
      generalize (if strip w.git.tags = [] then strip w.git.hash else strip w.git.tags) = v
      split
      · exact ⟨_, rfl⟩
      · rw [ht]; exact ⟨_, rfl⟩
  · rw [if_neg hp]
    exact ⟨_, rfl⟩

/-- **C91, the release.** If the script finds what the builds have produced and the documentation can be generated, it does not fail,
and the release has every Reference FMU of that FMI version and nothing else. -/
theorem C91_release {w : World} {major : Nat} (hm : major = 2 ∨ major = 3) (hb : FromBuild w major)
    (hr : ∀ model, Plotted (model ++ ascii ".fmu") → ∃ r, w.report model = some r) :
    ∃ result, mergeFmus w major = some result ∧
      ∀ f, (∃ m, (f, m) ∈ result) ↔ ∃ model ∈ referenceFMUs major, f = ascii model ++ ascii ".fmu" := by
  have hall : ∀ l : List (List UInt8), (∀ f ∈ l, ∃ m, mergeOne w major f = some m) → ∃ result, mergeAll w major l = some result := by
    intro l
    induction l with
    | nil => exact fun _ => ⟨[], rfl⟩
    | cons f fs ih =>
      intro h
      obtain ⟨rest, hrest⟩ := ih fun g hg => h g (List.mem_cons_of_mem _ hg)
      obtain ⟨m, hm⟩ := h f List.mem_cons_self
      unfold mergeAll
      split
      · rw [hm, hrest]; exact ⟨_, rfl⟩
      · exact ⟨rest, hrest⟩
  obtain ⟨result, hres⟩ := hall w.listing fun f hf => by
    obtain ⟨model, hn, rfl⟩ := (hb.listing f).1 hf
    exact mergeOne_isSome hm hb hn (hr model)
  refine ⟨result, hres, fun f => ?_⟩
  obtain ⟨h1, h2⟩ := C91_script hres
  have hnames : ∀ f, (∃ model ∈ modelNames major, f = model ++ ascii ".fmu") ↔
      ∃ model ∈ referenceFMUs major, f = ascii model ++ ascii ".fmu" := by
    have hset : (∀ n ∈ modelNames major, ∃ model ∈ referenceFMUs major, n = ascii model) ∧
        ∀ model ∈ referenceFMUs major, ascii model ∈ modelNames major := by
      rcases hm with rfl | rfl <;> decide +kernel
    intro f
    constructor
    · rintro ⟨n, hn, rfl⟩
      obtain ⟨model, h, rfl⟩ := hset.1 n hn
      exact ⟨model, h, rfl⟩
    · rintro ⟨model, h, rfl⟩
      exact ⟨_, hset.2 model h, rfl⟩
  rw [← hnames]
  constructor
  · rintro ⟨m, hfm⟩
    exact (hb.listing f).1 (h1 f m hfm).1
  · rintro ⟨model, hn, rfl⟩
    exact h2 model ((hb.listing _).2 ⟨model, hn, rfl⟩)

/-- The hypotheses can be met: FMUs of all models that consist of a model description. -/
example : ∃ w, FromBuild w 3 ∧ (∀ model, Plotted (model ++ ascii ".fmu") → ∃ r, w.report model = some r) ∧
    ((mergeFmus w 3).getD []).length = 9 :=
  ⟨{ listing := (modelNames 3).map (· ++ ascii ".fmu"), fmu := fun _ _ => some [([ascii "modelDescription.xml"], ascii "x")],
     report := fun _ => some ⟨[], [], []⟩, git := ⟨[], ascii "v1\n", []⟩, date := [] },
    ⟨fun f => by simp [eq_comm], fun _ _ _ _ _ => ⟨_, rfl, _, [], [], rfl, by simp⟩⟩, fun _ _ => ⟨_, rfl⟩, by decide +kernel⟩

end Verif.Merge
