import Verif.Models.BouncingBall
import Verif.Spec.Observe
import Verif.XRat

/-! # Specification: the bouncing ball -/

namespace Verif

/-- Height, velocity, acceleration and coefficient of restitution of a ball. -/
structure Ball where
  h : Rat
  v : Rat
  g : Rat
  e : Rat
  deriving DecidableEq

/-- The ball hits the ground. -/
def Ball.Hits (a : Ball) : Prop := a.h ≤ 0 ∧ a.v < 0

instance (a : Ball) : Decidable a.Hits := inferInstanceAs (Decidable (_ ∧ _))

/-- `b` is the ball after an event: if it hits the ground it is put above the ground; it rebounds with
the velocity `-e v`, but if that is less than 0.1, it comes to rest. Otherwise nothing changes. -/
structure Ball.Event (a b : Ball) : Prop where
  e : b.e = a.e
  above : a.Hits → 0 < b.h
  rebound : a.Hits → 1 / 10 ≤ -(a.e * a.v) → b.v = -(a.e * a.v) ∧ b.g = a.g
  rest : a.Hits → -(a.e * a.v) < 1 / 10 → b.v = 0 ∧ b.g = 0
  other : ¬ a.Hits → b = a

/-- The ball after an event. `1 / 2 ^ 1022` is the smallest positive normal floating point number. -/
def Ball.bounce (a : Ball) : Ball :=
  if a.Hits then
    if -(a.e * a.v) < 1 / 10 then ⟨1 / 2 ^ 1022, 0, 0, a.e⟩ else ⟨1 / 2 ^ 1022, -(a.e * a.v), a.g, a.e⟩
  else a

/-- A forward Euler step of one millisecond of `der(h) = v`, `der(v) = g`. -/
def Ball.fall (a : Ball) : Ball := { a with h := a.h + a.v / 1000, v := a.v + a.g / 1000 }

/-- The ball a millisecond later: it bounces when it arrives at the ground. -/
def Ball.next (a : Ball) : Ball := if 0 < a.h then a.fall.bounce else a.fall

/-- The importer reads these values of the variables `h`, `v`, `g` and `e` (value references 1, 3, 5, 6). -/
structure FMI2.ReadsBall (w : FMI2.World XRat (BouncingBall.Data XRat)) (b : Ball) : Prop where
  h : ReadsReal BouncingBall.model w 1 (.fin b.h)
  v : ReadsReal BouncingBall.model w 3 (.fin b.v)
  g : ReadsReal BouncingBall.model w 5 (.fin b.g)
  e : ReadsReal BouncingBall.model w 6 (.fin b.e)

/-- The importer reads these values of the variables `h`, `v`, `g` and `e` (value references 1, 3, 5, 6). -/
structure FMI3.ReadsBall (w : FMI3.World XRat (BouncingBall.Data XRat)) (b : Ball) : Prop where
  h : Reads BouncingBall.model w .float64 1 (.fin b.h)
  v : Reads BouncingBall.model w .float64 3 (.fin b.v)
  g : Reads BouncingBall.model w .float64 5 (.fin b.g)
  e : Reads BouncingBall.model w .float64 6 (.fin b.e)

end Verif
