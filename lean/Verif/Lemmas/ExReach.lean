import Verif.Spec.Reach
import Verif.Examples

/-! # The worlds of the examples are reachable -/

namespace Verif.Ex
variable {D : Type} {m : Model XRat D}

theorem reach_run2 {t : IType} {ops w outs} (h : run2 m t ops = .ret (w, outs)) : FMI2.Reachable m t w := by
  unfold run2 at h
  split at h
  · next c hc => exact ⟨_, _, _, _, _, _, c, _, .fresh c, 1000, ops, outs, Prod.ext hc rfl,
      ⟨rfl, fun _ => rfl, fun _ _ e => by cases e⟩, h⟩
  · cases h

theorem reachable2 {t : IType} {c} (hc : new2 m t = some c) : FMI2.Reachable m t (.fresh c) :=
  reach_run2 (ops := []) (outs := []) (by unfold run2; rw [hc]; rfl)

theorem reach_runCS3 {eventModeUsed early : Bool} {ops w outs} (h : runCS3 m eventModeUsed early ops = .ret (w, outs)) :
    FMI3.Reachable m .coSimulation w := by
  unfold runCS3 at h
  split at h
  · next c hc => exact ⟨c, .fresh c, 1000, ops, outs, .cs (Prod.ext hc rfl),
      ⟨rfl, fun _ => rfl, fun _ _ e => by cases e⟩, h⟩
  · cases h

theorem reachableCS3 {eventModeUsed early : Bool} {c} (hc : newCS3 m eventModeUsed early = some c) :
    FMI3.Reachable m .coSimulation (.fresh c) :=
  reach_runCS3 (eventModeUsed := eventModeUsed) (early := early) (ops := []) (outs := []) (by unfold runCS3; rw [hc]; rfl)

theorem reach_runME3 {ops w outs} (h : runME3 m ops = .ret (w, outs)) : FMI3.Reachable m .modelExchange w := by
  unfold runME3 at h
  split at h
  · next c hc => exact ⟨c, .fresh c, 1000, ops, outs, .me (Prod.ext hc rfl),
      ⟨rfl, fun _ => rfl, fun _ _ e => by cases e⟩, h⟩
  · cases h

theorem reach_runSE3 {ops w outs} (h : runSE3 m ops = .ret (w, outs)) : FMI3.Reachable m .scheduledExecution w := by
  unfold runSE3 at h
  split at h
  · next c hc => exact ⟨c, .fresh c, 1000, ops, outs, .se (Prod.ext hc rfl),
      ⟨rfl, fun _ => rfl, fun _ _ e => by cases e⟩, h⟩
  · cases h

end Verif.Ex
