import Verif.Lemmas.Protocol
import Verif.Examples

/-!
# C63 The importers for Model Exchange treat every FMU as the standard demands

`Obeys` and `Seen.Over` are in Spec/Protocol.lean. The FMU is an arbitrary function from the dialogue so far to the next answer.
-/

namespace Verif.Importer.Euler
open Verif
variable {F : Type} [Arith F] [HasInf F]

/-- Whatever the FMU answers: every call of the importer is right at its point, and it stops only if a call has failed, the FMU has asked
to terminate, or the stop time is reached. Not proved because it is false (`C63_violated`): that a zero crossing in the first step after
an event is handled. -/
theorem C63_partial (fmu : FMU F) (cfg : Config F) (fuel n : Nat) {go : Bool} {s : Sim F (Dialogue F)}
    (h : simulate fmu.api cfg fuel n [] = .ret (go, s)) :
    Obeys false cfg s.w ∧ (go = false → (seen false cfg s.w).Over cfg) := by
  obtain ⟨⟨b, s₁⟩, h1, h2⟩ := Outcome.bind_eq_ret.1 h
  have hg : Good false cfg (b, s₁) := by
    refine initial_good (fmu := fmu) fuel Obeys.nil ?_ ⟨false, rfl⟩ rfl rfl rfl rfl _ h1
    exact ⟨rfl, rfl, rfl, rfl, rfl, rfl, rfl, fun h => h.elim, fun h => h.elim, fun h => h.elim⟩
  dsimp only at h2
  split at h2
  · next hb =>
    have := passes_good (fmu := fmu) (fuel := fuel) rfl hg.1 (hg.2.1 hb) n _ h2
    exact ⟨this.1, this.2.2⟩
  · next hb =>
    cases h2
    exact ⟨hg.1, fun _ => hg.2.2 (by simpa using hb)⟩

/-- An FMU whose only event indicator changes its sign at the times 1 and 2. -/
def C63.fmu : FMU XRat := fun d _ =>
  ⟨.OK, fun _ => .fin (if d.length < 5 then 1 else if d.length < 13 then -1 else 1), ⟨false, false, false, false, false, .fin 0⟩, false,
    false⟩

def C63.cfg : Config XRat := ⟨0, 1, .fin 1, .fin 10, false⟩

/-- The dialogue of the importer with this FMU. -/
def C63.calls : List (Call XRat) :=
  [.update, .enterContinuousTimeMode, .getIndicators, .record,
    .setTime (.fin 1), .getIndicators, .completed, .record,
    .enterEventMode, .update, .enterContinuousTimeMode, .record,
    .setTime (.fin 2), .getIndicators, .completed, .record,
    .setTime (.fin 3), .getIndicators, .completed, .record]

def C63.talk (cs : List (Call XRat)) : Dialogue XRat := cs.foldl (fun d c => d ++ [(c, C63.fmu d c)]) []

theorem C63.dialogue : ∃ s, simulate C63.fmu.api C63.cfg 10 3 [] = .ret (true, s) ∧ s.w = C63.talk C63.calls := by
  refine ⟨⟨C63.talk C63.calls, .fin 3, 3, [], [], [], [.fin 1], [.fin 1], ⟨false, false, false, false, false, .fin 0⟩, false, false⟩,
    ?_, rfl⟩
  with_unfolding_all rfl

/-- Non-vacuity: an FMU with one state that has a time event at 1, changes its state there, and asks to terminate when it is told about the
third step. -/
example : (simulate (FMU.api fun d c =>
      (⟨.OK, fun _ => .fin 1, ⟨false, false, false, decide (4 < d.length), decide (d.length < 4), .fin 1⟩, false,
        decide (20 < d.length)⟩ : Answer XRat)) ⟨1, 0, .fin 1, .fin 10, false⟩ 10 5 []).is (fun r =>
      !r.1 && decide (r.2.w.length = 25) && decide (r.2.time = .fin 3) && decide (r.2.x = [.fin 3])) = true := by
  decide +kernel

/-- The property does not hold for the first step after an event: the importer sets the time 3, although the event indicator has
changed its sign between the times 1 and 2 and this event has not been handled. -/
theorem C63_violated : ∃ (fmu : FMU XRat) (cfg : Config XRat) (fuel n : Nat) (s : Sim XRat (Dialogue XRat)),
    simulate fmu.api cfg fuel n [] = .ret (true, s) ∧ ¬ Obeys true cfg s.w := by
  obtain ⟨s, hs, hw⟩ := C63.dialogue
  refine ⟨C63.fmu, C63.cfg, 10, 3, s, hs, ?_⟩
  intro h
  have := h (C63.talk (C63.calls.take 16)) (.setTime (.fin 3)) (C63.fmu (C63.talk (C63.calls.take 16)) (.setTime (.fin 3)))
    ((C63.talk C63.calls).drop 17) (by rw [hw]; rfl)
  obtain ⟨_, _, _, _, _, hd, _⟩ := this
  revert hd
  simp [C63.talk, C63.calls, seen, Seen.add, Seen.told, C63.fmu, Crosses, C63.cfg]
  intro h
  exact absurd (show (0 : Rat) < 1 by decide) (h (by decide))

end Verif.Importer.Euler
