import Verif.Props.C05
import Verif.Spec.Modes3

/-!
# Two worlds in which the variables have the same values
-/

namespace Verif
variable {F D : Type} [Arith F] [HasInf F]

namespace FMI2

/-- Whatever a function reading variables returns in `w`, it returns in `w'`: what can be read in `w` can be read in `w'`, with the same result. -/
def SameReads (m : Model F D) (w w' : World F D) : Prop :=
  ∀ fuel op, Spec.readsVariables op.fn = true → w.inst.ctx.state ∈ Spec.allowedIn op.fn →
    ∀ w₁ s o, step m fuel w op = .ret (w₁, s, o) → ∃ w₂, step m fuel w' op = .ret (w₂, s, o)

end FMI2

namespace FMI3

/-- Whatever a Get function returns in `w`, it returns in `w'`: what can be read in `w` can be read in `w'`, with the same result. -/
def SameReads (m : Model F D) (w w' : World F D) : Prop :=
  ∀ fuel t vr n v nv, w.inst.ctx.state ∈ Spec.allowedIn (.get t) →
    ∀ w₁ s o, step m fuel w (.get t vr n v nv) = .ret (w₁, s, o) →
      ∃ w₂, step m fuel w' (.get t vr n v nv) = .ret (w₂, s, o)

end FMI3
end Verif
