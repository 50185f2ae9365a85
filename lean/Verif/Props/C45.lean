import Verif.Lemmas.NoUbReach
import Verif.Lemmas.ClocksRun
import Verif.Lemmas.ExReach

/-!
# C45: well-formed calls execute no undefined behaviour

`WellFormed` (Verif/Spec/WellFormed.lean): every array argument has at least the announced number of elements
and every output pointer that must be written is not NULL. `Undefined`: the call reads or writes through a NULL
pointer or outside an array, or overflows a signed integer. In FMI 2.0 this cannot happen in any of the
Reference FMUs, whatever was called before. In FMI 3.0 it can happen in five of them; for these the theorems state
the additional condition, and the `C45_violated` theorems show that it is needed.
-/

set_option linter.unusedSectionVars false

namespace Verif
variable {F D : Type} [Arith F] [HasInf F] {m : Model F D}

namespace FMI2

/-- **C45** for FMI 2.0: in every Reference FMU, after any sequence of calls, no call with
well-formed arguments executes undefined behaviour. -/
theorem C45 (hm : RefFMU2 m) {t : IType} {w : World F D} (hw : Reachable m t w) {op : Op F} (wf : WellFormed w op) :
    ¬ Undefined m w op := by
  rintro ⟨fuel, e⟩
  revert e
  cases hm with
  | bouncingBall => exact step_noUb BouncingBall.safe (hw.sound .bouncingBall BouncingBall.safe .true trivial trivial) wf fun _ => trivial
  | dahlquist => exact step_noUb Dahlquist.safe (hw.sound .dahlquist Dahlquist.safe .true trivial trivial) wf fun _ => trivial
  | feedthrough =>
    exact step_noUb (Feedthrough.safe false) (hw.sound .feedthrough (Feedthrough.safe false) .true trivial trivial) wf fun _ => trivial
  | resource fs =>
    exact step_noUb (Resource.safe false fs) (hw.sound (.resource fs) (Resource.safe false fs) .true trivial nofun) wf fun _ => trivial
  | stair =>
    refine step_noUb Stair.safe (hw.sound .stair Stair.safe Stair.bounded (fun h => absurd h (by simp [MV.zero, Stair.model])) trivial) wf
      fun _ => ?_
    have h := hw.stair.inst
    show w.inst.mv.data.counter < 2 ^ 31 - 1
    rcases h with h | h
    · have h : w.inst.mv.data.counter ≤ 10 := h
      omega
    · have h : w.inst.mv.data.counter ≤ 11 := h.1
      omega
  | vanDerPol => exact step_noUb VanDerPol.safe (hw.sound .vanDerPol VanDerPol.safe .true trivial trivial) wf fun _ => trivial

/-- **C45**: the loops of the solver over the continuous states and the event indicators stay inside the arrays of
the instance. -/
theorem C45_arrays (hm : RefFMU2 m) {t : IType} {w : World F D} (hw : Reachable m t w) :
    w.inst.nx ≤ w.inst.x.length ∧ w.inst.nx ≤ w.inst.dx.length ∧
    w.inst.nz ≤ w.inst.z.length ∧ w.inst.nz ≤ w.inst.prez.length := by
  have key : ∀ {K J}, w.inst.Sound m K J → w.inst.nx ≤ w.inst.x.length ∧ w.inst.nx ≤ w.inst.dx.length ∧
      w.inst.nz ≤ w.inst.z.length ∧ w.inst.nz ≤ w.inst.prez.length := fun h =>
    ⟨by rw [h.lens.x]; exact h.nx, by rw [h.lens.dx]; exact h.nx, by rw [h.lens.z]; exact h.nz, by rw [h.lens.prez]; exact h.nz⟩
  cases hm with
  | bouncingBall => exact key (hw.sound .bouncingBall BouncingBall.safe .true trivial trivial)
  | dahlquist => exact key (hw.sound .dahlquist Dahlquist.safe .true trivial trivial)
  | feedthrough => exact key (hw.sound .feedthrough (Feedthrough.safe false) .true trivial trivial)
  | resource fs => exact key (hw.sound (.resource fs) (Resource.safe false fs) .true trivial nofun)
  | stair => exact key (hw.sound .stair Stair.safe Stair.bounded (fun h => absurd h (by simp [MV.zero, Stair.model])) trivial)
  | vanDerPol => exact key (hw.sound .vanDerPol VanDerPol.safe .true trivial trivial)

/-- Non-vacuity: a world of BouncingBall in Step Mode, and a call that reads three variables. -/
example : ∃ w outs, Ex.run2 (BouncingBall.model : Model XRat _) .coSimulation (Ex.init2 ++ [.doStep (.fin 0) (.fin (1/10))]) = .ret (w, outs) ∧
    Ex.allOK outs = true ∧ Reachable (BouncingBall.model : Model XRat _) .coSimulation w ∧
    WellFormed w (.getReal (some [0, 1, 3]) 3 (some [.nan, .nan, .nan])) := by
  obtain ⟨⟨w, outs⟩, e, h⟩ := Outcome.exists_of_is (r := Ex.run2 (BouncingBall.model : Model XRat _) .coSimulation
    (Ex.init2 ++ [.doStep (.fin 0) (.fin (1/10))])) (p := fun x => Ex.allOK x.2) (by decide +kernel)
  exact ⟨w, outs, e, h, Ex.reach_run2 e, .inr ⟨_, rfl, by simp⟩, .inr ⟨_, rfl, by simp⟩⟩

/-- A call that is not well formed executes undefined behaviour: three values announced, an array with two. -/
example : ∃ w outs, Ex.run2 (BouncingBall.model : Model XRat _) .coSimulation Ex.init2 = .ret (w, outs) ∧
    Undefined BouncingBall.model w (.getReal (some [0, 1, 3]) 3 (some [.nan, .nan])) := by
  obtain ⟨⟨w, outs⟩, e, h⟩ := Outcome.exists_of_is (r := Ex.run2 (BouncingBall.model : Model XRat _) .coSimulation Ex.init2)
    (p := fun x => (step BouncingBall.model 1 x.1 (.getReal (some [0, 1, 3]) 3 (some [.nan, .nan]))).isUb) (by decide +kernel)
  exact ⟨w, outs, e, 1, Outcome.ub_of_isUb h⟩

end FMI2

namespace FMI3

/-- The FMI 3.0 Reference FMUs for which well-formed arguments suffice. -/
inductive C45.Robust {F : Type} [Arith F] : {D : Type} → Model F D → Prop
  | bouncingBall : Robust BouncingBall.model
  | dahlquist : Robust Dahlquist.model
  | roberts : Robust Roberts.model
  | vanDerPol : Robust VanDerPol.model

/-- **C45** for FMI 3.0: in BouncingBall, Dahlquist, Roberts and VanDerPol, after any sequence of calls,
no call with well-formed arguments executes undefined behaviour. -/
theorem C45_robust (hm : C45.Robust m) {t : IType} {w : World F D} (hw : Reachable m t w) {op : Op F} (wf : WellFormed w op) :
    ¬ Undefined m w op := by
  rintro ⟨fuel, e⟩
  revert e
  cases hm with
  | bouncingBall =>
    exact step_noUb BouncingBall.safe (hw.sound .bouncingBall BouncingBall.safe .true trivial trivial) wf (fun _ h => h.elim) (fun _ => trivial)
      fun _ _ => .ret
  | dahlquist =>
    exact step_noUb Dahlquist.safe (hw.sound .dahlquist Dahlquist.safe .true trivial trivial) wf (fun _ h => h.elim) (fun _ => trivial)
      fun _ _ => .ret
  | roberts =>
    exact step_noUb Roberts.safe (hw.sound .roberts Roberts.safe .true trivial trivial) wf (fun _ h => h.elim) (fun _ => trivial)
      fun _ _ => .ret
  | vanDerPol =>
    exact step_noUb VanDerPol.safe (hw.sound .vanDerPol VanDerPol.safe .true trivial trivial) wf (fun _ h => h.elim) (fun _ => trivial)
      fun _ _ => .ret

/-- **C45** for Resource in FMI 3.0, if the path of the resources given to the instantiation function is shorter than
4096 bytes. -/
theorem C45_resource_partial {fs : Resource.FileSystem} {t : IType} {w : World F Resource.Data} (hw : Reachable (Resource.model true fs) t w)
    (hl : ∀ path, w.inst.ctx.resourceLocation = some path → path.length < 4096) {op : Op F} (wf : WellFormed w op) :
    ¬ Undefined (Resource.model true fs) w op := by
  rintro ⟨fuel, e⟩
  exact step_noUb (Resource.safe true fs) (hw.sound (.resource fs) (Resource.safe true fs) .true trivial fun _ => hl) wf (fun _ h => h.elim)
    (fun _ => trivial) (fun _ _ => .ret) e

/-- **C45** for Feedthrough in FMI 3.0, if no call of a Set function announces fewer values than variables. -/
theorem C45_feedthrough_partial {t : IType} {w : World F (Feedthrough.Data F)} (hw : Reachable (Feedthrough.model true) t w) {op : Op F}
    (wf : WellFormed w op) (hn : EnoughValues op) : ¬ Undefined (Feedthrough.model true) w op := by
  rintro ⟨fuel, e⟩
  exact step_noUb (Feedthrough.safe true) (hw.sound .feedthrough (Feedthrough.safe true) .true trivial trivial) wf
    (fun e _ => by subst e; exact hn) (fun _ => trivial) (fun _ _ => .ret) e

/-- **C45** for StateSpace, if no call of a Set function announces fewer values than variables. -/
theorem C45_stateSpace_partial {t : IType} {w : World F (StateSpace.Data F)} (hw : Reachable StateSpace.model t w) {op : Op F}
    (wf : WellFormed w op) (hn : EnoughValues op) : ¬ Undefined StateSpace.model w op := by
  rintro ⟨fuel, e⟩
  exact step_noUb StateSpace.safe (hw.sound .stateSpace StateSpace.safe StateSpace.dims rfl trivial) wf
    (fun e _ => by subst e; exact hn) (fun _ => trivial) (fun _ _ => .ret) e

/-- **C45** for Stair in FMI 3.0, during the first 2^31 - 12 calls, if no call of a Set function announces fewer values
than variables. -/
theorem C45_stair_partial {t : IType} {c : Comp F Stair.Data} (hc : New Stair.model t c) {w₀ w : World F Stair.Data} (h0 : w₀.Initial c)
    {fuel : Nat} {ops : List (Op F)} {outs} (e : run Stair.model fuel w₀ ops = .ret (w, outs)) (hl : ops.length < 2 ^ 31 - 12)
    {op : Op F} (wf : WellFormed w op) (hn : EnoughValues op) : ¬ Undefined Stair.model w op := by
  rintro ⟨fuel', e'⟩
  have hw : Reachable Stair.model t w := ⟨c, w₀, fuel, ops, outs, hc, h0, e⟩
  have h := (stair_run ops (k := 0) (WInv.initial h0 hc.stair.1) (WInv.initial h0 hc.stair.2) e).2.inst
  have h : w.inst.mv.data.counter ≤ 10 + (0 + ops.length : Nat) := h
  refine step_noUb Stair.safe (hw.sound .stair Stair.safe Stair.bounded (fun h => absurd h (by simp [MV.zero, Stair.model])) trivial) wf
    (fun e _ => by subst e; exact hn) (fun _ => ?_) (fun _ _ => .ret) e'
  show w.inst.mv.data.counter < 2 ^ 31 - 1
  omega

/-- What an activation of a clock needs: the importer provides the callback `clockUpdate`, the total number of ticks (2004) and
the sum `result2 + input2` (2005 and 2006) still fit a 32 bit integer, and so does the activation time. -/
def C45.CanActivate (w : World F (Clocks.Data F)) : Op F → Prop
  | .activateModelPartition clock time =>
    w.inst.ctx.clockUpdate = true ∧
    (∀ n, Clocks.intVar w.inst.mv.data 2004 = some n → n < 2 ^ 31 - 1) ∧
    (clock = 1001 → Arith.toInt time ≠ none) ∧
    (clock = 1002 → ∀ a b, Clocks.intVar w.inst.mv.data 2005 = some a → Clocks.intVar w.inst.mv.data 2006 = some b →
      -2 ^ 31 ≤ a + b ∧ a + b < 2 ^ 31)
  | _ => True

/-- **C45** for Clocks under the condition `CanActivate`. -/
theorem C45_clocks_partial {t : IType} {w : World F (Clocks.Data F)} (hw : Reachable Clocks.model t w) {op : Op F} (wf : WellFormed w op)
    (ha : C45.CanActivate w op) : ¬ Undefined Clocks.model w op := by
  rintro ⟨fuel, e⟩
  refine step_noUb Clocks.safe (hw.sound .clocks Clocks.safe .true trivial trivial) wf (fun _ h => h.elim) (fun _ => trivial) ?_ e
  rintro k t' rfl -
  obtain ⟨hu, hn, hti, hr⟩ := ha
  obtain ⟨d, hd⟩ := Clocks.described hw
  have htot := hn _ rfl
  have h1 := hd.one; have h2 := hd.two; have h3 := hd.three; have h4 := hd.total
  have hk : d.total = d.one + d.two + d.three := rfl
  have int : ∀ {n : Int}, -(2 ^ 31) ≤ n → n < 2 ^ 31 → Clocks.toInt32 n = .ret n := fun ha hb => if_pos ⟨ha, hb⟩
  have upd : ∀ mv, (Clocks.callClockUpdate w.inst.ctx mv).NoUb := fun mv => by
    simp only [Clocks.callClockUpdate, hu, if_true]
    exact .ret
  have lock : ∀ mv : MV F (Clocks.Data F), (Clocks.callLock w.inst.ctx mv).data = mv.data := fun mv => by
    unfold Clocks.callLock Clocks.emit; split <;> rfl
  show (Clocks.activateModelPartition _ _ k t').NoUb
  unfold Clocks.activateModelPartition
  split
  · refine Outcome.NoUb.bind ?_ fun _ => .ret
    unfold Clocks.partition1
    simp only []
    rw [int (by omega) (by omega), int (by omega) (by omega)]
    simp only [Outcome.ret_bind]
    cases ht : Arith.toInt t' with
    | none => exact absurd ht (hti rfl)
    | some it =>
      simp only
      repeat' split
      all_goals first | exact upd _ | exact .ret
  · refine Outcome.NoUb.bind ?_ fun _ => .ret
    unfold Clocks.partition2
    simp only [lock]
    have := hr rfl _ _ rfl rfl
    rw [int (by omega) (by omega), int (by omega) (by omega), int (by omega) (by omega)]
    simp only [Outcome.ret_bind]
    split
    · exact upd _
    · exact .ret
  · refine Outcome.NoUb.bind ?_ fun _ => .ret
    unfold Clocks.partition3
    simp only [lock]
    rw [int (by omega) (by omega)]
    simp only [Outcome.ret_bind, lock]
    rw [int (by omega) (by omega)]
    simp only [Outcome.ret_bind]
    split
    · exact upd _
    · exact .ret
  · exact .ret

/-- **C45**: the loops of the solver over the continuous states and the event indicators stay inside the arrays of
the instance. -/
theorem C45_arrays (hm : RefFMU3 m) {t : IType} {w : World F D} (hw : Reachable m t w) :
    w.inst.nx ≤ w.inst.x.length ∧ w.inst.nx ≤ w.inst.dx.length ∧
    w.inst.nz ≤ w.inst.z.length ∧ w.inst.nz ≤ w.inst.prez.length := by
  have key : ∀ {K J}, w.inst.Sound m K J → w.inst.nx ≤ w.inst.x.length ∧ w.inst.nx ≤ w.inst.dx.length ∧
      w.inst.nz ≤ w.inst.z.length ∧ w.inst.nz ≤ w.inst.prez.length := fun h =>
    ⟨by rw [h.lens.x]; exact h.nx, by rw [h.lens.dx]; exact h.nx, by rw [h.lens.z]; exact h.nz, by rw [h.lens.prez]; exact h.nz⟩
  cases hm with
  | bouncingBall => exact key (hw.sound .bouncingBall BouncingBall.safe .true trivial trivial)
  | clocks => exact key (hw.sound .clocks Clocks.safe .true trivial trivial)
  | dahlquist => exact key (hw.sound .dahlquist Dahlquist.safe .true trivial trivial)
  | feedthrough => exact key (hw.sound .feedthrough (Feedthrough.safe true) .true trivial trivial)
  | resource fs =>
    obtain ⟨E, hr, hE⟩ := (RefFMU3.resource (F := F) fs).respects
    have hl := (hw.self hr hE).inst.lens
    have hs := (Reachable.inv (RefFMU3.resource (F := F) fs).eff.okOrError (HistInv.fits (m := Resource.model true fs) (J := fun _ => True) .true
      (fun _ _ => Nat.le_refl _) (fun _ _ => Nat.le_refl _)) (by
        intro c hc
        obtain ⟨_, _, _, _, _, _, _, c₀, _, _, _, _, _, _, e, rfl⟩ := hc.created
        have hs := createModelInstance_sizes e
        exact ⟨trivial, by simp only; omega, by simp only; omega⟩) hw).inst
    exact ⟨by rw [hl.x]; exact hs.2.1, by rw [hl.dx]; exact hs.2.1, by rw [hl.z]; exact hs.2.2, by rw [hl.prez]; exact hs.2.2⟩
  | roberts => exact key (hw.sound .roberts Roberts.safe .true trivial trivial)
  | stair => exact key (hw.sound .stair Stair.safe Stair.bounded (fun h => absurd h (by simp [MV.zero, Stair.model])) trivial)
  | stateSpace => exact key (hw.sound .stateSpace StateSpace.safe StateSpace.dims rfl trivial)
  | vanDerPol => exact key (hw.sound .vanDerPol VanDerPol.safe .true trivial trivial)

/-- Non-vacuity of the theorems for FMI 3.0: instances of each kind, and calls that meet the conditions. -/
example : ∃ w outs, Ex.runCS3 (Roberts.model : Model XRat _) false false (Ex.init3 ++ [.doStep (.fin 0) (.fin (1/1000000)) Ex.stepOut]) =
      .ret (w, outs) ∧ Ex.allOK outs = true ∧ Reachable (Roberts.model : Model XRat _) .coSimulation w ∧
    WellFormed w (.get .float64 (some [0, 1, 2]) 3 (some [.nan, .nan, .nan]) 3) := by
  obtain ⟨⟨w, outs⟩, e, h⟩ := Outcome.exists_of_is (r := Ex.runCS3 (Roberts.model : Model XRat _) false false
    (Ex.init3 ++ [.doStep (.fin 0) (.fin (1/1000000)) Ex.stepOut])) (p := fun x => Ex.allOK x.2) (by decide +kernel)
  exact ⟨w, outs, e, h, Ex.reach_runCS3 e, .inr ⟨_, rfl, by simp⟩, .inr ⟨_, rfl, by simp⟩⟩

example : ∃ w outs, Ex.runCS3 (StateSpace.model : Model XRat _) false false Ex.init3 = .ret (w, outs) ∧
    Reachable (StateSpace.model : Model XRat _) .coSimulation w ∧
    WellFormed w (.set .float64 (some [5]) 1 (some [.fin 1, .fin 2, .fin 3]) 3) ∧
    EnoughValues (F := XRat) (.set .float64 (some [5]) 1 (some [.fin 1, .fin 2, .fin 3]) 3) := by
  obtain ⟨⟨w, outs⟩, e, h⟩ := Outcome.exists_of_is (r := Ex.runCS3 (StateSpace.model : Model XRat _) false false Ex.init3)
    (p := fun x => Ex.allOK x.2) (by decide +kernel)
  exact ⟨w, outs, e, Ex.reach_runCS3 e, ⟨.inr ⟨_, rfl, by simp⟩, .inr ⟨_, rfl, by simp⟩, fun _ _ _ _ => trivial⟩, by simp [EnoughValues]⟩

example : ∃ w outs, Ex.runSE3 (Clocks.model : Model XRat _) (Ex.init3 ++ [.activateModelPartition 1001 (.fin 0)]) = .ret (w, outs) ∧
    Ex.allOK outs = true ∧ Reachable (Clocks.model : Model XRat _) .scheduledExecution w ∧
    C45.CanActivate w (.activateModelPartition 1002 (.fin 1)) := by
  obtain ⟨⟨w, outs⟩, e, h⟩ := Outcome.exists_of_is (r := Ex.runSE3 (Clocks.model : Model XRat _)
    (Ex.init3 ++ [.activateModelPartition 1001 (.fin 0)])) (p := fun x => Ex.allOK x.2 && decide (x.1.inst.ctx.clockUpdate = true) &&
      decide (x.1.inst.mv.data.totalInClockTicks = 1) && decide (x.1.inst.mv.data.result2 = 0) && decide (x.1.inst.mv.data.input2 = 0))
    (by decide +kernel)
  simp only [Bool.and_eq_true, decide_eq_true_eq] at h
  obtain ⟨⟨⟨⟨h1, h2⟩, h3⟩, h4⟩, h5⟩ := h
  refine ⟨w, outs, e, h1, Ex.reach_runSE3 e, h2, ?_, nofun, ?_⟩
  · intro n hn
    simp only [Clocks.intVar, Option.some.injEq] at hn
    omega
  · intro _ a b ha hb
    simp only [Clocks.intVar, Option.some.injEq] at ha hb
    omega

/-- **C45** fails for Stair in FMI 3.0: a Set function with two variables but one value reads a second value, which the
array need not have. -/
theorem C45_violated_stair : ∃ (w : World XRat Stair.Data) (op : Op XRat), Reachable Stair.model .coSimulation w ∧
    WellFormed w op ∧ Undefined Stair.model w op := by
  obtain ⟨⟨w, outs⟩, e, h⟩ := Outcome.exists_of_is (r := Ex.runCS3 (Stair.model : Model XRat _) false false [])
    (p := fun x => (step Stair.model 1 x.1 (.set .int32 (some [1, 1]) 2 (some [(3 : Int)]) 1)).isUb) (by decide +kernel)
  exact ⟨w, .set .int32 (some [1, 1]) 2 (some [(3 : Int)]) 1, Ex.reach_runCS3 e, ⟨.inr ⟨_, rfl, by simp⟩, .inr ⟨_, rfl, by simp⟩, fun _ _ _ _ => trivial⟩, 1, Outcome.ub_of_isUb h⟩

/-- **C45** fails for Feedthrough in FMI 3.0 for the same reason: the enumeration is read before the number of values is checked. -/
theorem C45_violated_feedthrough : ∃ (w : World XRat (Feedthrough.Data XRat)) (op : Op XRat),
    Reachable (Feedthrough.model true) .coSimulation w ∧ WellFormed w op ∧ Undefined (Feedthrough.model true) w op := by
  obtain ⟨⟨w, outs⟩, e, h⟩ := Outcome.exists_of_is (r := Ex.runCS3 (Feedthrough.model true : Model XRat _) false false Ex.init3)
    (p := fun x => (step (Feedthrough.model true) 1 x.1 (.set .int64 (some [33, 33]) 2 (some [(1 : Int)]) 1)).isUb) (by decide +kernel)
  exact ⟨w, .set .int64 (some [33, 33]) 2 (some [(1 : Int)]) 1, Ex.reach_runCS3 e, ⟨.inr ⟨_, rfl, by simp⟩, .inr ⟨_, rfl, by simp⟩, fun _ _ _ _ => trivial⟩, 1, Outcome.ub_of_isUb h⟩

/-- **C45** fails for StateSpace: a structural parameter is read before the number of values is checked. -/
theorem C45_violated_stateSpace : ∃ (w : World XRat (StateSpace.Data XRat)) (op : Op XRat),
    Reachable StateSpace.model .coSimulation w ∧ WellFormed w op ∧ Undefined StateSpace.model w op := by
  obtain ⟨⟨w, outs⟩, e, h⟩ := Outcome.exists_of_is (r := Ex.runCS3 (StateSpace.model : Model XRat _) false false [.enterConfigurationMode])
    (p := fun x => (step StateSpace.model 1 x.1 (.set .uint64 (some [2]) 1 (some ([] : List Int)) 0)).isUb) (by decide +kernel)
  exact ⟨w, .set .uint64 (some [2]) 1 (some ([] : List Int)) 0, Ex.reach_runCS3 e, ⟨.inr ⟨_, rfl, by simp⟩, .inl rfl, fun _ _ _ _ => trivial⟩, 1, Outcome.ub_of_isUb h⟩

/-- A new instance of Clocks without the callback `clockUpdate`. -/
def C45.newNoUpdate : Option (Comp XRat (Clocks.Data XRat)) :=
  (instantiateScheduledExecution Clocks.model (some "i") (some (Clocks.model (F := XRat)).token) none true true false true true true).1

/-- **C45** fails for Clocks if the importer passes NULL for the callback `clockUpdate`: the instantiation succeeds, and the FMU later
calls through the NULL pointer. -/
theorem C45_violated_clocks : ∃ (w : World XRat (Clocks.Data XRat)) (op : Op XRat),
    Reachable Clocks.model .scheduledExecution w ∧ WellFormed w op ∧ Undefined Clocks.model w op := by
  obtain ⟨c, hc, h⟩ := exists_of_any (o := C45.newNoUpdate) (p := fun c => (run Clocks.model 1 (.fresh c) Ex.init3).is fun x =>
    (step Clocks.model 1 x.1 (.activateModelPartition 1001 (.fin 4))).isUb) (by decide +kernel)
  obtain ⟨⟨w, outs⟩, e, h⟩ := Outcome.exists_of_is h
  exact ⟨w, .activateModelPartition 1001 (.fin 4), ⟨c, .fresh c, 1, _, outs, .se (Prod.ext hc rfl), ⟨rfl, fun _ => rfl, fun _ _ e => by cases e⟩, e⟩, trivial, 1,
    Outcome.ub_of_isUb h⟩

/-- An importer that passes a path of 4096 bytes. -/
def C45.newLong : Option (Comp XRat Resource.Data) :=
  (instantiateCoSimulation (Resource.model true fun _ => none) (some "i") (some (Resource.model (F := XRat) true fun _ => none).token)
    (some (List.replicate 4096 47)) true false false true false true).1

/-- **C45** fails for Resource in FMI 3.0 with a path of 4096 bytes or more. -/
theorem C45_violated_resource : ∃ (w : World XRat Resource.Data) (op : Op XRat),
    Reachable (Resource.model true fun _ => none) .coSimulation w ∧ WellFormed w op ∧ Undefined (Resource.model true fun _ => none) w op := by
  obtain ⟨c, hc, h⟩ := exists_of_any (o := C45.newLong) (p := fun c => (run (Resource.model true fun _ => none) 1 (.fresh c)
    [.enterInitializationMode (.fin 0) false (.fin 0)]).is fun x =>
    (step (Resource.model true fun _ => none) 1 x.1 .exitInitializationMode).isUb) (by decide +kernel)
  obtain ⟨⟨w, outs⟩, e, h⟩ := Outcome.exists_of_is h
  exact ⟨w, .exitInitializationMode, ⟨c, .fresh c, 1, _, outs, .cs (Prod.ext hc rfl), ⟨rfl, fun _ => rfl, fun _ _ e => by cases e⟩, e⟩, trivial, 1,
    Outcome.ub_of_isUb h⟩

/-- Room for the outputs of `fmi3UpdateDiscreteStates`. -/
def C45.eventOut : EventOut XRat := ⟨some false, some false, some false, some false, some false, some (.fin 0)⟩

/-- An instance of Stair at time infinity. -/
structure C45.AtInfinity (c : Comp XRat Stair.Data) (n : Int) : Prop where
  time : c.ctx.time = .pinf
  next : ∃ q, c.mv.nextEventTime = .fin q
  defined : c.mv.nextEventTimeDefined = true
  count : c.mv.data.counter = n
  mode : c.ctx.state = .eventMode ∨ c.ctx.state = .terminated

theorem C45.AtInfinity.step {w : World XRat Stair.Data} {n : Int} (h : C45.AtInfinity w.inst n) :
    (n < 2 ^ 31 - 1 → ∃ w' s o, FMI3.step Stair.model 1 w (.updateDiscreteStates C45.eventOut) = .ret (w', s, o) ∧
      C45.AtInfinity w'.inst (n + 1)) ∧
    (2 ^ 31 - 1 ≤ n → FMI3.step Stair.model 1 w (.updateDiscreteStates C45.eventOut) = .ub) := by
  obtain ⟨q, hq⟩ := h.next
  have hclose : isClose w.inst.ctx.time w.inst.mv.nextEventTime = true := by
    rw [h.time, hq]
    have h1 : fmiMax (fmiAbs XRat.pinf) (fmiAbs (XRat.fin q)) = .pinf := by
      unfold fmiMax fmiAbs
      cases (Arith.lit 0 <=. XRat.fin q) <;> rfl
    have h2 : (epsilon *. XRat.pinf : XRat) = .pinf := by decide +kernel
    unfold isClose
    rw [h1, h2]
    rfl
  have ha : allowed w.inst.ctx MASK_AnyState = true := (allowed_any _).2 (by rcases h.mode with e | e <;> simp [e])
  simp only [FMI3.step, updateDiscreteStates, begin, beginFunction, ha, if_true, Stair.model, Stair.eventUpdate, h.defined, hclose,
    Bool.and_self, h.count, ge_iff_le]
  constructor
  · intro hn
    rw [if_neg (by omega)]
    simp only [Outcome.ret_bind]
    by_cases h10 : 10 < n + 1
    · refine ⟨_, _, _, by simp [h10, failM, call, Comp.lift, World.run, Status.rank]; exact ⟨rfl, rfl, rfl⟩, ?_⟩
      unfold logError
      refine ⟨h.time, ⟨q + 1, ?_⟩, ?_, ?_, by simp [Comp.setState]⟩
      · split <;> simp [Comp.setState, hq] <;> rfl
      · split <;> simp [Comp.setState]
      · split <;> simp [Comp.setState]
    · refine ⟨_, _, _, by simp [h10, call, Comp.lift, World.run, Status.rank]; exact ⟨rfl, rfl, rfl⟩, ?_⟩
      exact ⟨h.time, ⟨q + 1, by simp [hq]⟩, rfl, rfl, h.mode⟩
  · intro hn
    rw [if_pos hn]
    rfl

theorem C45.AtInfinity.run (k : Nat) : ∀ {w : World XRat Stair.Data}, C45.AtInfinity w.inst (2 ^ 31 - 1 - k) →
    FMI3.run Stair.model 1 w (List.replicate (k + 1) (.updateDiscreteStates C45.eventOut)) = .ub := by
  induction k with
  | zero =>
    intro w h
    simp only [List.replicate, FMI3.run]
    rw [h.step.2 (by omega)]
    rfl
  | succ k ih =>
    intro w h
    rw [List.replicate_succ]
    obtain ⟨w', s, o, e, h'⟩ := h.step.1 (by omega)
    unfold FMI3.run
    rw [e]
    simp only [Outcome.ret_bind]
    rw [ih (by rw [show (2 ^ 31 - 1 - k : Int) = 2 ^ 31 - 1 - (k + 1 : Nat) + 1 by omega]; exact h')]
    rfl

/-- **C45** fails for Stair in FMI 3.0 even with enough values: `fmi3SetTime` accepts infinity, every
`fmi3UpdateDiscreteStates` then increments the counter, even after it has reported an error, and after 2^31 calls the signed
integer overflows. So the bound on the number of calls in `C45_stair_partial` is needed. -/
theorem C45_violated_stair_overflow : ∃ (w : World XRat Stair.Data), Reachable Stair.model .modelExchange w ∧ ∃ n : Nat,
    run Stair.model 1 w (List.replicate n (.updateDiscreteStates C45.eventOut)) = .ub := by
  obtain ⟨⟨w, outs⟩, e, h⟩ := Outcome.exists_of_is (r := Ex.runME3 (Stair.model : Model XRat _)
    (Ex.init3 ++ [.updateDiscreteStates C45.eventOut, .setTime .pinf]))
    (p := fun x => Ex.allOK x.2 && decide (x.1.inst.ctx.time = .pinf) && decide (x.1.inst.mv.nextEventTime = .fin 1) &&
      decide (x.1.inst.mv.nextEventTimeDefined = true) && decide (x.1.inst.mv.data.counter = 1) && decide (x.1.inst.ctx.state = .eventMode))
    (by decide +kernel)
  simp only [Bool.and_eq_true, decide_eq_true_eq] at h
  obtain ⟨⟨⟨⟨⟨h1, h2⟩, h3⟩, h4⟩, h5⟩, h6⟩ := h
  refine ⟨w, Ex.reach_runME3 e, _, C45.AtInfinity.run (2 ^ 31 - 2) ⟨h2, ⟨_, h3⟩, h4, ?_, .inl h6⟩⟩
  rw [h5]; decide

end FMI3
end Verif
