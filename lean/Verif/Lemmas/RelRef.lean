import Verif.RefFMUs
import Verif.Lemmas.RelBouncingBall
import Verif.Lemmas.RelClocks
import Verif.Lemmas.RelDahlquist
import Verif.Lemmas.RelFeedthrough
import Verif.Lemmas.RelResource
import Verif.Lemmas.RelRoberts
import Verif.Lemmas.RelStair
import Verif.Lemmas.RelStateSpace
import Verif.Lemmas.RelVanDerPol

/-! # The Reference FMUs respect an equivalence of instances -/

namespace Verif
variable {F D : Type} [Arith F] {m : Model F D}

theorem RefFMU2.respects (h : RefFMU2 m) : ∃ E, Respects m E ∧ ∀ mv, E mv mv := by
  cases h
  · exact ⟨_, BouncingBall.respects, Same.refl _⟩
  · exact ⟨_, Dahlquist.respects, Same.refl _⟩
  · exact ⟨_, Feedthrough.respects, Same.refl _⟩
  · exact ⟨_, Resource.respects, Same.refl _⟩
  · exact ⟨_, Stair.respects, Same.refl _⟩
  · exact ⟨_, VanDerPol.respects, Same.refl _⟩

theorem RefFMU3.respects (h : RefFMU3 m) : ∃ E, Respects m E ∧ ∀ mv, E mv mv := by
  cases h
  · exact ⟨_, BouncingBall.respects, Same.refl _⟩
  · exact ⟨_, Clocks.respects, Same.refl _⟩
  · exact ⟨_, Dahlquist.respects, Same.refl _⟩
  · exact ⟨_, Feedthrough.respects, Same.refl _⟩
  · exact ⟨_, Resource.respects, Same.refl _⟩
  · exact ⟨_, Roberts.respects, Same.refl _⟩
  · exact ⟨_, Stair.respects, Same.refl _⟩
  · exact ⟨_, StateSpace.respects, Same.refl _⟩
  · exact ⟨_, VanDerPol.respects, Same.refl _⟩

end Verif
