import Verif.Lemmas.OdeRef
import Verif.Lemmas.ModelEff
import Verif.Lemmas.Views

/-!
# Reading functions of `model.c`

`Ode.Reads`: the functions of `model.c` behind getters only bring the dependent variables up to date.
-/

set_option linter.unusedSectionVars false

namespace Verif
variable {F D : Type}

/-- The functions of `model.c` that only read. -/
def MFn.reading : List MFn :=
  [.calc, .get, .getStates, .nominals, .deriv, .indicators, .partialDeriv, .outDeriv]

/-- The functions that only read keep the data up to `upd`. -/
def Model.ReadsUpTo (m : Model F D) (upd : D → D) : Prop :=
  ∀ f ctx mv mv' s, f ∈ MFn.reading → MStep m f ctx mv mv' s → upd mv'.data = upd mv.data

/-- `r` keeps the data up to `upd`. -/
def KeepR {β V : Type} (upd : D → V) (d : D) (r : MRes F D β) : Prop :=
  r.All fun x => upd x.1.data = upd d

section
variable {V : Type} {upd : D → V} {d : D} {ctx : Ctx F} {mv : MV F D}

theorem KeepR.ret {β : Type} {s : Status} {b : β} (h : upd mv.data = upd d) :
    KeepR upd d (.ret (mv, s, b)) := by simpa [KeepR] using h
theorem KeepR.ub {β : Type} : KeepR (F := F) (β := β) upd d .ub := by simp [KeepR]
theorem KeepR.bind {α β : Type} {r : Outcome α} {k : α → MRes F D β}
    (h : ∀ a, KeepR upd d (k a)) : KeepR upd d (r >>- k) :=
  Outcome.all_bind.2 fun a _ => h a
theorem KeepR.fail {β : Type} (h : upd mv.data = upd d) (msg : String) (b : β) :
    KeepR upd d (failM ctx mv msg b) := by
  unfold failM logError
  split <;> exact KeepR.ret h
theorem KeepR.nValues {β : Type} {n nv i : Nat} {b : β} {k : MRes F D β}
    (h : upd mv.data = upd d) (hk : KeepR upd d k) :
    KeepR upd d (assertNValues ctx mv n nv i b k) := by
  unfold assertNValues; split
  · exact KeepR.fail h _ _
  · exact hk
theorem KeepR.notNull {α β : Type} {p : Option α} {b : β} {k : MRes F D β}
    (h : upd mv.data = upd d) (hk : KeepR upd d k) :
    KeepR upd d (assertNotNull ctx mv p b k) := by
  unfold assertNotNull; split
  · exact KeepR.fail h _ _
  · exact hk
theorem KeepR.size {β : Type} {a e : Nat} {b : β} {k : MRes F D β}
    (h : upd mv.data = upd d) (hk : KeepR upd d k) :
    KeepR upd d (assertSize ctx mv a e b k) := by
  unfold assertSize; split
  · exact KeepR.fail h _ _
  · exact hk
theorem KeepR.put {α : Type} {p : Ptr α} {n i : Nat} {v : α} (h : upd mv.data = upd d) :
    KeepR upd d (putScalar ctx mv p n i v) :=
  KeepR.nValues h (KeepR.bind fun _ => KeepR.ret h)
theorem KeepR.putV {mv' : MV F D} {p : Ptr F} {n : Nat} {l : List F} (h : upd mv.data = upd d)
    (h' : upd mv'.data = upd d) : KeepR upd d (putVector ctx mv mv' p n l) :=
  KeepR.notNull h (KeepR.size h (KeepR.bind fun _ => KeepR.ret h'))
theorem KeepR.take {α : Type} {p : Ptr α} {n i : Nat} {f : α → D} (h : upd mv.data = upd d)
    (hf : ∀ v, upd (f v) = upd d) : KeepR upd d (takeScalar ctx mv p n i f) :=
  KeepR.nValues h (KeepR.bind fun v => KeepR.ret (hf v))
theorem KeepR.takeV {p : Ptr F} {n e : Nat} {f : List F → D} (h : upd mv.data = upd d)
    (hf : ∀ v, upd (f v) = upd d) : KeepR upd d (takeVector ctx mv p n e f) :=
  KeepR.notNull h (KeepR.size h (KeepR.bind fun v => KeepR.ret (hf v)))
theorem KeepR.setStub {t vr p n i} : KeepR upd mv.data (Verif.setStub t ctx mv vr p n i) :=
  KeepR.fail rfl _ _
theorem KeepR.getStub {t vr p n i} : KeepR upd mv.data (getStub t ctx mv vr p n i) :=
  KeepR.fail rfl _ _
theorem KeepR.vecStub {p n} : KeepR upd mv.data (Verif.vecStub ctx mv p n) :=
  KeepR.size rfl (KeepR.ret rfl)
theorem KeepR.partialStub {u k o} : KeepR upd mv.data (partialStub ctx mv u k o) :=
  KeepR.fail rfl _ _
theorem KeepR.errStub {β : Type} {b : β} : KeepR upd mv.data (.ret (mv, .Error, b)) := KeepR.ret rfl
end

/-- Prove `KeepR` of an accessor; `e` proves that the update is idempotent. -/
macro "mkeep" e:term : tactic =>
  `(tactic| repeat' (first
    | with_reducible exact KeepR.getStub
    | with_reducible exact KeepR.vecStub
    | with_reducible exact KeepR.partialStub
    | with_reducible exact KeepR.errStub
    | with_reducible apply KeepR.put
    | with_reducible apply KeepR.fail
    | with_reducible refine KeepR.notNull ?_ ?_
    | with_reducible refine KeepR.size ?_ ?_
    | with_reducible refine KeepR.nValues ?_ ?_
    | with_reducible apply KeepR.putV
    | with_reducible apply KeepR.ret
    | with_reducible exact KeepR.ub
    | (with_reducible apply KeepR.bind) <;> intro _
    | with_reducible rfl
    | exact $e _
    | split))

theorem Model.ReadsUpTo.intro {m : Model F D} {upd : D → D}
    (hcalc : ∀ ctx mv, KeepR upd mv.data (m.calculateValues ctx mv))
    (get : ∀ t ctx mv vr p n i, KeepR upd mv.data (m.get t ctx mv vr p n i))
    (getStates : ∀ ctx mv p n, KeepR upd mv.data (m.getContinuousStates ctx mv p n))
    (nominals : ∀ ctx mv p n, KeepR upd mv.data (m.getNominals ctx mv p n))
    (deriv : ∀ ctx mv p n, KeepR upd mv.data (m.getDerivatives ctx mv p n))
    (ind : ∀ ctx mv p n, KeepR upd mv.data (m.getEventIndicators ctx mv p n))
    (pd : ∀ ctx mv u k o, KeepR upd mv.data (m.getPartialDerivative ctx mv u k o))
    (od : ∀ g, m.getOutputDerivative = some g → ∀ ctx mv vr o v, KeepR upd mv.data (g ctx mv vr o v)) :
    m.ReadsUpTo upd := by
  intro f ctx mv mv' s hf h
  cases h with
  | «calc» e => exact hcalc _ _ _ e
  | get e => exact get _ _ _ _ _ _ _ _ e
  | getStates e => exact getStates _ _ _ _ _ e
  | nominals e => exact nominals _ _ _ _ _ e
  | deriv e => exact deriv _ _ _ _ _ e
  | indicators e => exact ind _ _ _ _ _ e
  | partialDeriv e => exact pd _ _ _ _ _ _ e
  | outDeriv h e => exact od _ h _ _ _ _ _ _ e
  | _ => exact absurd hf (by decide)

variable [Arith F]

theorem Dahlquist.reads : (Dahlquist.model (F := F)).ReadsUpTo Dahlquist.ode.calc' := by
  have hu := (Dahlquist.ode (F := F)).calc_calc
  apply Model.ReadsUpTo.intro
  case get =>
    intro t ctx mv vr p n i
    cases t <;> simp only [Dahlquist.model, Dahlquist.getFloat64] <;> mkeep hu
  case od => intro eu h; cases h
  all_goals
    intros
    simp only [Dahlquist.model]
    mkeep hu

theorem VanDerPol.reads : (VanDerPol.model (F := F)).ReadsUpTo VanDerPol.ode.calc' := by
  have hu := (VanDerPol.ode (F := F)).calc_calc
  apply Model.ReadsUpTo.intro
  case get =>
    intro t ctx mv vr p n i
    cases t <;> simp only [VanDerPol.model, VanDerPol.getFloat64] <;> mkeep hu
  case od => intro eu h; cases h
  all_goals
    intros
    simp only [VanDerPol.model, VanDerPol.getPartialDerivative]
    mkeep hu

theorem Roberts.reads : (Roberts.model (F := F)).ReadsUpTo Roberts.ode.calc' := by
  have hu := (Roberts.ode (F := F)).calc_calc
  apply Model.ReadsUpTo.intro
  case get =>
    intro t ctx mv vr p n i
    cases t <;> simp only [Roberts.model, Roberts.getFloat64, Roberts.getBoolean] <;> mkeep hu
  case od => intro eu h; cases h
  all_goals
    intros
    simp only [Roberts.model, Roberts.getPartialDerivative]
    mkeep hu

theorem BouncingBall.reads : (BouncingBall.model (F := F)).ReadsUpTo BouncingBall.ode.calc' := by
  have hu := (BouncingBall.ode (F := F)).calc_calc
  apply Model.ReadsUpTo.intro
  case get =>
    intro t ctx mv vr p n i
    cases t <;> simp only [BouncingBall.model, BouncingBall.getFloat64] <;> mkeep hu
  case od =>
    intro g h ctx mv vr o v; cases h
    unfold BouncingBall.getOutputDerivative; mkeep hu
  all_goals
    intros
    simp only [BouncingBall.model]
    mkeep hu

theorem Stair.reads : (Stair.model (F := F)).ReadsUpTo (Stair.ode (F := F)).calc' := by
  have hu := (Stair.ode (F := F)).calc_calc
  apply Model.ReadsUpTo.intro
  case get =>
    intro t ctx mv vr p n i
    cases t <;> simp only [Stair.model, Stair.getFloat64, Stair.getInt32] <;> mkeep hu
  case od => intro eu h; cases h
  all_goals
    intros
    simp only [Stair.model]
    mkeep hu

end Verif
