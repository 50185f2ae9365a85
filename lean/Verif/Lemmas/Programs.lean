import Verif.Importer.Programs
import Verif.Spec.Simulation

/-!
# The simulation programs fit their FMUs
-/

namespace Verif
open Importer.CoSim

section
variable {F D : Type} {p : Profile F D}

theorem Profile.gets_of {t : VType} {vrs : List Nat} (h : ∀ r ∈ vrs, p.declares t r) : p.gets t (some vrs) vrs.length := fun i hi =>
  ⟨vrs[i], ⟨vrs, rfl, by simp [hi]⟩, h _ (by simp)⟩

theorem Profile.sets_one {typ : IType} {mode : Mode} {t : VType} {r : Nat} {x : t.Val F} {vrs : List Nat} {xs : List (t.Val F)}
    (h : p.settable typ mode t r x) : p.sets typ mode t (some (r :: vrs)) 1 (some (x :: xs)) := fun i hi =>
  ⟨r, x, ⟨_, rfl, by cases i with | zero => rfl | succ => omega⟩, ⟨_, rfl, by cases i with | zero => rfl | succ => omega⟩, h⟩

theorem Profile.sets_two {typ : IType} {mode : Mode} {t : VType} {r r' : Nat} {x x' : t.Val F}
    (h : p.settable typ mode t r x) (h' : p.settable typ mode t r' x') : p.sets typ mode t (some [r, r']) 2 (some [x, x']) := fun i hi =>
  match i with
  | 0 => ⟨r, x, ⟨_, rfl, rfl⟩, ⟨_, rfl, rfl⟩, h⟩
  | 1 => ⟨r', x', ⟨_, rfl, rfl⟩, ⟨_, rfl, rfl⟩, h'⟩
  | i + 2 => by omega

end

section
variable {F D : Type} [Arith F] [HasInf F] {m : Model F D} {p : Profile F D}

namespace FMI2
theorem Access.getReal {vrs : List Nat} {n : Nat} {v : List F} (hn : n = vrs.length) (hv : n = v.length) (h : ∀ r ∈ vrs, p.declares .float64 r) :
    Access m p .stepComplete (.getReal (some vrs) n (some v)) := by
  subst hn
  refine ⟨by simp [Op.fn], by simp [Op.fn, Spec.allowedIn], fun w _ _ => ⟨⟨Profile.gets_of h, by simp⟩, .inr ⟨_, rfl, Nat.le_refl _⟩, .inr ⟨_, rfl, by omega⟩⟩⟩

theorem Access.getInteger {vrs : List Nat} {n : Nat} {v : List Int} (hn : n = vrs.length) (hv : n = v.length) (h : ∀ r ∈ vrs, p.declares .int32 r) :
    Access m p .stepComplete (.getInteger (some vrs) n (some v)) := by
  subst hn
  refine ⟨by simp [Op.fn], by simp [Op.fn, Spec.allowedIn], fun w _ _ => ⟨⟨Profile.gets_of h, by simp⟩, .inr ⟨_, rfl, Nat.le_refl _⟩, .inr ⟨_, rfl, by omega⟩⟩⟩

theorem Access.getBoolean {vrs : List Nat} {n : Nat} {v : List Int} (hn : n = vrs.length) (hv : n = v.length) (h : ∀ r ∈ vrs, p.declares .boolean r) :
    Access m p .stepComplete (.getBoolean (some vrs) n (some v)) := by
  subst hn
  refine ⟨by simp [Op.fn], by simp [Op.fn, Spec.allowedIn], fun w _ _ => ⟨Profile.gets_of h, .inr ⟨_, rfl, Nat.le_refl _⟩, .inr ⟨_, rfl, by omega⟩⟩⟩

theorem Access.getString {vrs : List Nat} {n : Nat} {v : List (Ptr UInt8)} (hn : n = vrs.length) (hv : n = v.length)
    (h : ∀ r ∈ vrs, p.declares .string r) : Access m p .stepComplete (.getString (some vrs) n (some v)) := by
  subst hn
  refine ⟨by simp [Op.fn], by simp [Op.fn, Spec.allowedIn], fun w _ _ => ⟨⟨Profile.gets_of h, by simp⟩, .inr ⟨_, rfl, Nat.le_refl _⟩, .inr ⟨_, rfl, by omega⟩⟩⟩

end FMI2

namespace FMI3
theorem Access.get {t : VType} {vrs : List Nat} {n : Nat} {v : List (t.Val F)} (hn : n = vrs.length) (hv : n = v.length)
    (h : ∀ r ∈ vrs, p.declares t r) : Access m p .stepMode (.get t (some vrs) n (some v) n) := by
  subst hn
  refine ⟨.inl ⟨t, rfl⟩, by simp [Op.fn, Spec.allowedIn], fun w _ _ => ⟨.inr ⟨Profile.gets_of h, by simp, by split <;> simp⟩,
    .inr ⟨_, rfl, Nat.le_refl _⟩, .inr ⟨_, rfl, by omega⟩⟩⟩

theorem set_allowed (t : VType) {mode : Mode} (hm : mode = .instantiated ∨ mode = .stepMode) : mode ∈ Spec.allowedIn (.set t) := by
  rcases hm with rfl | rfl <;> cases t <;> decide

theorem Access.set {t : VType} {mode : Mode} (hm : mode = .instantiated ∨ mode = .stepMode) {vrs : List Nat} {n : Nat} {v : List (t.Val F)}
    (hn : n = vrs.length) (hv : n = v.length) (hg : ∀ x ∈ v, t.Good x) (h : p.sets .coSimulation mode t (some vrs) n (some v)) :
    Access m p mode (.set t (some vrs) n (some v) n) := by
  refine ⟨.inr ⟨t, rfl⟩, set_allowed t hm, fun w h1 h2 => ⟨.inr ⟨by rw [h1, h2]; exact h, rfl⟩,
    .inr ⟨_, rfl, by omega⟩, .inr ⟨_, rfl, by omega⟩, fun l hl x hx => ?_⟩⟩
  cases hl
  exact hg x hx

theorem Access.set_one {t : VType} {mode : Mode} (hm : mode = .instantiated ∨ mode = .stepMode) {r : Nat} {x : t.Val F}
    (hg : t.Good x) (h : p.settable .coSimulation mode t r x) : Access m p mode (.set t (some [r]) 1 (some [x]) 1) :=
  .set hm rfl rfl (by simpa using hg) (Profile.sets_one h)
end FMI3
end

section
variable {F : Type} [Arith F] [HasInf F]

namespace FMI2

theorem fits_bouncingBall : Fits BouncingBall.model (.bouncingBall : Profile F _) bouncingBall2 :=
  ⟨by simp [bouncingBall2], by simp [bouncingBall2], fun op h => by
    simp only [bouncingBall2, List.mem_singleton] at h; subst h
    exact .getReal rfl rfl (by simp [Profile.declares, Profile.bouncingBall])⟩

theorem fits_dahlquist : Fits Dahlquist.model (.dahlquist : Profile F _) dahlquist2 :=
  ⟨by simp [dahlquist2], by simp [dahlquist2], fun op h => by
    simp only [dahlquist2, List.mem_singleton] at h; subst h
    exact .getReal rfl rfl (by simp [Profile.declares, Profile.dahlquist])⟩

theorem fits_vanDerPol : Fits VanDerPol.model (.vanDerPol : Profile F _) vanDerPol2 :=
  ⟨by simp [vanDerPol2], by simp [vanDerPol2], fun op h => by
    simp only [vanDerPol2, List.mem_singleton] at h; subst h
    exact .getReal rfl rfl (by simp [Profile.declares, Profile.vanDerPol])⟩

theorem fits_stair : Fits Stair.model (.stair : Profile F _) stair2 :=
  ⟨by simp [stair2], by simp [stair2], fun op h => by
    simp only [stair2, List.mem_singleton] at h; subst h
    exact .getInteger rfl rfl (by simp [Profile.declares, Profile.stair])⟩

theorem fits_resource (fs : Resource.FileSystem) : Fits (Resource.model false fs) (.resource false fs : Profile F _) resource2 :=
  ⟨by simp [resource2], by simp [resource2], fun op h => by
    simp only [resource2, List.mem_singleton] at h; subst h
    exact .getInteger rfl rfl (by simp [Profile.declares, Profile.resource])⟩

theorem fits_feedthrough : Fits (Feedthrough.model false) (.feedthrough false : Profile F _) feedthrough2 := by
  refine ⟨fun op h => ?_, fun t op h => ?_, fun op h => ?_⟩
  · simp only [feedthrough2, List.mem_singleton] at h; subst h
    refine ⟨by simp [Op.fn], by simp [Op.fn, Spec.allowedIn], fun w h1 h2 => ⟨?_, .inr ⟨_, rfl, by simp⟩, .inr ⟨_, rfl, by simp⟩⟩⟩
    exact Profile.sets_one ⟨.fixed, by simp [Profile.feedthrough, Profile.feedthroughVars], by simp [Access.allows, h1], trivial⟩
  · simp only [feedthrough2, List.mem_cons, List.not_mem_nil, or_false] at h
    rcases h with rfl | rfl | rfl | rfl | rfl
    · refine ⟨by simp [Op.fn], by simp [Op.fn, Spec.allowedIn], fun w h1 h2 => ⟨?_, .inr ⟨_, rfl, by simp⟩, .inr ⟨_, rfl, by simp⟩⟩⟩
      exact Profile.sets_one ⟨.always, by simp [Profile.feedthrough, Profile.feedthroughVars], by simp [Access.allows], trivial⟩
    · refine ⟨by simp [Op.fn], by simp [Op.fn, Spec.allowedIn], fun w h1 h2 => ⟨?_, .inr ⟨_, rfl, by simp⟩, .inr ⟨_, rfl, by simp⟩⟩⟩
      exact Profile.sets_one ⟨.discrete, by simp [Profile.feedthrough, Profile.feedthroughVars], by simp [Access.allows, h1], trivial⟩
    · refine ⟨by simp [Op.fn], by simp [Op.fn, Spec.allowedIn], fun w h1 h2 => ⟨?_, .inr ⟨_, rfl, by simp⟩, .inr ⟨_, rfl, by simp⟩⟩⟩
      exact Profile.sets_one ⟨.always, by simp [Profile.feedthrough, Profile.feedthroughVars], by simp [Access.allows], by
        simp [Profile.feedthrough, Profile.feedthroughAdmits]⟩
    · refine ⟨by simp [Op.fn], by simp [Op.fn, Spec.allowedIn], fun w h1 h2 => ⟨?_, .inr ⟨_, rfl, by simp⟩, .inr ⟨_, rfl, by simp⟩⟩⟩
      exact Profile.sets_one ⟨.always, by simp [Profile.feedthrough, Profile.feedthroughVars], by simp [Access.allows], trivial⟩
    · refine ⟨by simp [Op.fn], by simp [Op.fn, Spec.allowedIn], fun w h1 h2 => ⟨?_, .inr ⟨_, rfl, by simp⟩, .inr ⟨_, rfl, by simp⟩, ?_⟩⟩
      · refine Profile.sets_one ⟨.always, by simp [Profile.feedthrough, Profile.feedthroughVars], by simp [Access.allows], _, rfl, ?_⟩
        split <;> decide +kernel
      · intro l hl x hx
        cases hl
        simp only [List.mem_singleton] at hx
        subst hx
        simp [VType.Good, Feedthrough.text]
  · simp only [feedthrough2, List.mem_cons, List.not_mem_nil, or_false] at h
    rcases h with rfl | rfl | rfl | rfl
    · exact .getReal rfl rfl (by simp [Profile.declares, Profile.feedthrough, Profile.feedthroughVars])
    · exact .getInteger rfl rfl (by simp [Profile.declares, Profile.feedthrough, Profile.feedthroughVars])
    · exact .getBoolean rfl rfl (by simp [Profile.declares, Profile.feedthrough, Profile.feedthroughVars])
    · exact .getString rfl rfl (by simp [Profile.declares, Profile.feedthrough, Profile.feedthroughVars])

end FMI2

namespace FMI3

theorem fits_bouncingBall : Fits BouncingBall.model (.bouncingBall : Profile F _) bouncingBall3 :=
  ⟨by simp [bouncingBall3], by simp [bouncingBall3], fun op h => by
    simp only [bouncingBall3, List.mem_singleton] at h; subst h
    exact .get rfl rfl (by simp [Profile.declares, Profile.bouncingBall])⟩

theorem fits_dahlquist : Fits Dahlquist.model (.dahlquist : Profile F _) dahlquist3 :=
  ⟨by simp [dahlquist3], by simp [dahlquist3], fun op h => by
    simp only [dahlquist3, List.mem_singleton] at h; subst h
    exact .get rfl rfl (by simp [Profile.declares, Profile.dahlquist])⟩

theorem fits_vanDerPol : Fits VanDerPol.model (.vanDerPol : Profile F _) vanDerPol3 :=
  ⟨by simp [vanDerPol3], by simp [vanDerPol3], fun op h => by
    simp only [vanDerPol3, List.mem_singleton] at h; subst h
    exact .get rfl rfl (by simp [Profile.declares, Profile.vanDerPol])⟩

theorem fits_stair : Fits Stair.model (.stair : Profile F _) stair3 :=
  ⟨by simp [stair3], by simp [stair3], fun op h => by
    simp only [stair3, List.mem_singleton] at h; subst h
    exact .get rfl rfl (by simp [Profile.declares, Profile.stair])⟩

theorem fits_resource (fs : Resource.FileSystem) : Fits (Resource.model true fs) (.resource true fs : Profile F _) resource3 :=
  ⟨by simp [resource3], by simp [resource3], fun op h => by
    simp only [resource3, List.mem_singleton] at h; subst h
    exact .get rfl rfl (by simp [Profile.declares, Profile.resource])⟩

theorem fits_feedthrough (f32 : F → UInt32) : Fits (Feedthrough.model true) (.feedthrough true : Profile F _) (feedthrough3 f32) := by
  refine ⟨fun op h => ?_, fun t op h => ?_, fun op h => ?_⟩
  · simp only [feedthrough3, List.mem_singleton] at h; subst h
    exact .set_one (.inl rfl) trivial ⟨.fixed, by simp [Profile.feedthrough, Profile.feedthroughVars], by simp [Access.allows], trivial⟩
  · simp only [feedthrough3, List.mem_cons, List.not_mem_nil, or_false] at h
    rcases h with rfl | rfl | rfl | rfl | rfl | rfl | rfl | rfl | rfl | rfl | rfl | rfl | rfl | rfl | rfl | rfl
    case inr.inr.inr.inl =>
      refine .set (.inr rfl) rfl rfl (by simp [VType.Good]) (Profile.sets_two ⟨.discrete, ?_, ?_, trivial⟩ ⟨.discrete, ?_, ?_, trivial⟩)
      all_goals first | simp [Access.allows] | simp [Profile.feedthrough, Profile.feedthroughVars]
    case inr.inr.inl =>
      exact .set_one (.inr rfl) trivial ⟨.discrete, by simp [Profile.feedthrough, Profile.feedthroughVars], by simp [Access.allows], trivial⟩
    all_goals
      refine .set_one (.inr rfl) ?_ ⟨.always, by simp [Profile.feedthrough, Profile.feedthroughVars], by simp [Access.allows], ?_⟩
    all_goals first
      | exact trivial
      | (simp [Profile.feedthrough, Profile.feedthroughAdmits]; done)
      | (simp [VType.Good, Feedthrough.text]; done)
      | (exact ⟨_, rfl, by change 3 ≤ _; split <;> decide +kernel⟩)
      | (exact ⟨_, rfl, by split <;> decide +kernel⟩)
      | (simp [Profile.feedthrough, Profile.feedthroughAdmits, Feedthrough.range, Feedthrough.bytes])
  · simp only [feedthrough3, List.mem_cons, List.not_mem_nil, or_false] at h
    rcases h with rfl | rfl | rfl | rfl | rfl | rfl | rfl | rfl | rfl | rfl | rfl | rfl | rfl
    all_goals exact .get rfl rfl (by simp [Profile.declares, Profile.feedthrough, Profile.feedthroughVars])

end FMI3
end
end Verif
