import Verif.Lemmas.Rel

/-!
# Observational equivalence of instances, for each Reference FMU

Two instances are equivalent if their *keys* are equal. The key of an FMU consists of the values
that determine everything the importer can observe from then on; values that are recomputed
before they are read do not belong to it.
-/

set_option linter.unusedSectionVars false
set_option linter.unusedSimpArgs false

namespace Verif

/-- Instances with equal keys. -/
def Same {F D K : Type} (key : MV F D → K) (mv mv' : MV F D) : Prop := key mv = key mv'

section
variable {F D K : Type}

theorem Same.refl (key : MV F D → K) (mv : MV F D) : Same key mv mv := rfl
theorem Same.symm {key : MV F D → K} {mv mv' : MV F D} (h : Same key mv mv') : Same key mv' mv :=
  Eq.symm h
theorem Same.trans {key : MV F D → K} {a b c : MV F D} (h : Same key a b) (h' : Same key b c) :
    Same key a c := Eq.trans h h'

/-- The flags the runtime looks at. -/
def MV.flags (mv : MV F D) : Bool × Bool × Bool × F × Bool :=
  (mv.newDiscreteStatesNeeded, mv.terminateSimulation, mv.nextEventTimeDefined, mv.nextEventTime,
    mv.clocksTicked)

/-- The flags the runtime overwrites on an event update, if the FMU has one. -/
def MV.moreFlags (mv : MV F D) : Bool × Bool := (mv.nominalsChanged, mv.valuesChanged)
end

/-- Prove a relational goal for a function of `model.c`. -/
macro "mrel" : tactic => `(tactic| repeat' first
  | contradiction
  | ((with_reducible apply MRel.fail) <;> first | exact fun _ _ _ _ h => h | exact rfl)
  | ((with_reducible apply MRel.putScalar) <;> first | exact fun _ _ _ _ h => h | exact rfl)
  | ((with_reducible apply MRel.takeScalar) <;>
      first | exact fun _ => rfl | exact fun _ _ _ _ h => h | exact rfl)
  | ((with_reducible apply MRel.ret') <;> exact rfl)
  | with_reducible apply MRel.ub
  | ((with_reducible refine MRel.notNull ?_ ?_ ?_); exact fun _ _ _ _ h => h; exact rfl)
  | ((with_reducible refine MRel.nValues ?_ ?_ ?_); exact fun _ _ _ _ h => h; exact rfl)
  | ((with_reducible refine MRel.size ?_ ?_ ?_); exact fun _ _ _ _ h => h; exact rfl)
  | ((with_reducible refine MRel.ite ?_ ?_ ?_); exact Iff.rfl)
  | with_reducible refine MRel.bind fun _ _ => ?_
  | split)

end Verif
