import Verif.Lemmas.Sequence
import Verif.Examples

/-!
# C14: a vectored get or set is the same as the sequence of single gets or sets

`each mk w l` (Spec/Sequence.lean) performs the calls `mk r` for the items of `l` one after the
other, until one does not return OK.
-/

set_option linter.unusedSectionVars false

namespace Verif
variable {F D : Type} [Arith F] [HasInf F]

namespace FMI2
variable {m : Model F D}

/-- **C14**, FMI 2.0, `fmi2GetReal`: a call for the references `rs` ends with world `w'` and status
`s` exactly if single calls for the references do (up to the first that fails), and the values
returned are those of the single calls. -/
theorem C14_fmi2_getReal (hm : RefFMU2 m) (fuel : Nat) (w w' : World F D) (s : Status) (o : Out F)
    (rs : List Nat) (hne : rs ≠ []) (l : List F) (hl : rs.length ≤ l.length) (x : F) :
    step m fuel w (.getReal (some rs) rs.length (some l)) = .ret (w', s, o) ↔
      ∃ vs : List F,
        each m fuel (fun r => .getReal (some [r]) 1 (some [x])) w rs =
          .ret (w', s, vs.map fun v => .reals (some [v])) ∧
        o = .reals (some (vs ++ l.drop vs.length)) :=
  fits_step (out := Out.reals) (k := fun c => getReal m c (some rs) rs.length (some l))
    (one := fun c r => getReal m c (some [r]) 1 (some [x])) rfl (fun _ _ => rfl)
    (get_fits (mask := MASK_GetReal) (name := "fmi2GetReal") (t := .float64) hm.eff.okOrError x hne
      (fun r _ => hm.uniGet .float64 r) w.inst l hl)
    (fun p q h => by simpa using h)

/-- **C14**, FMI 2.0, `fmi2GetInteger`. -/
theorem C14_fmi2_getInteger (hm : RefFMU2 m) (fuel : Nat) (w w' : World F D) (s : Status) (o : Out F)
    (rs : List Nat) (hne : rs ≠ []) (l : List Int) (hl : rs.length ≤ l.length) (x : Int) :
    step m fuel w (.getInteger (some rs) rs.length (some l)) = .ret (w', s, o) ↔
      ∃ vs : List Int,
        each m fuel (fun r => .getInteger (some [r]) 1 (some [x])) w rs =
          .ret (w', s, vs.map fun v => .ints (some [v])) ∧
        o = .ints (some (vs ++ l.drop vs.length)) :=
  fits_step (out := Out.ints) (k := fun c => getInteger m c (some rs) rs.length (some l))
    (one := fun c r => getInteger m c (some [r]) 1 (some [x])) rfl (fun _ _ => rfl)
    (get_fits (mask := MASK_GetReal) (name := "fmi2GetInteger") (t := .int32) hm.eff.okOrError x hne (fun r _ => hm.uniGet .int32 r) w.inst l hl)
    (fun p q h => by simpa using h)

/-- **C14**, FMI 2.0, `fmi2GetBoolean`. -/
theorem C14_fmi2_getBoolean (hm : RefFMU2 m) (fuel : Nat) (w w' : World F D) (s : Status) (o : Out F)
    (rs : List Nat) (hne : rs ≠ []) (l : List Int) (hl : rs.length ≤ l.length) (x : Int) :
    step m fuel w (.getBoolean (some rs) rs.length (some l)) = .ret (w', s, o) ↔
      ∃ vs : List Int,
        each m fuel (fun r => .getBoolean (some [r]) 1 (some [x])) w rs =
          .ret (w', s, vs.map fun v => .ints (some [v])) ∧
        o = .ints (some (vs ++ l.drop vs.length)) :=
  fits_step (out := Out.ints) (k := fun c => getBoolean m c (some rs) rs.length (some l))
    (one := fun c r => getBoolean m c (some [r]) 1 (some [x])) rfl (fun _ _ => rfl)
    (getBoolean_fits x hne (fun r _ => hm.uniGet .boolean r) w.inst l hl)
    (fun p q h => by simpa using h)

/-- **C14**, FMI 2.0, `fmi2GetString`. -/
theorem C14_fmi2_getString (hm : RefFMU2 m) (fuel : Nat) (w w' : World F D) (s : Status) (o : Out F)
    (rs : List Nat) (hne : rs ≠ []) (l : List (Ptr UInt8)) (hl : rs.length ≤ l.length) (x : Ptr UInt8) :
    step m fuel w (.getString (some rs) rs.length (some l)) = .ret (w', s, o) ↔
      ∃ vs : List (Ptr UInt8),
        each m fuel (fun r => .getString (some [r]) 1 (some [x])) w rs =
          .ret (w', s, vs.map fun v => .strs (some [v])) ∧
        o = .strs (some (vs ++ l.drop vs.length)) :=
  fits_step (out := Out.strs) (k := fun c => getString m c (some rs) rs.length (some l))
    (one := fun c r => getString m c (some [r]) 1 (some [x])) rfl (fun _ _ => rfl)
    (get_fits (mask := MASK_GetReal) (name := "fmi2GetString") (t := .string) hm.eff.okOrError x hne (fun r _ => hm.uniGet .string r) w.inst l hl)
    (fun p q h => by simpa using h)

/-- **C14**, FMI 2.0, `fmi2SetReal`: a call for the pairs `ps` of reference and value has the
outcome (final world and status) of single calls for the pairs, up to the first that fails. -/
theorem C14_fmi2_setReal (hm : RefFMU2 m) (fuel : Nat) (w : World F D) (ps : List (Nat × F)) (hne : ps ≠ []) :
    step m fuel w (.setReal (some (ps.map Prod.fst)) ps.length (some (ps.map Prod.snd))) =
      each m fuel (fun p => .setReal (some [p.1]) 1 (some [p.2])) w ps >>- fun (w', s, _) => .ret (w', s, .unit) :=
  set_step (k := fun c => setReal m c (some (ps.map Prod.fst)) ps.length (some (ps.map Prod.snd)))
    (one := fun c p => setReal m c (some [p.1]) 1 (some [p.2])) rfl (fun _ _ => rfl)
    (set_each (t := .float64) hne (fun p _ => hm.markSet .float64 p.1) w.inst)

/-- **C14**, FMI 2.0, `fmi2SetInteger`. -/
theorem C14_fmi2_setInteger (hm : RefFMU2 m) (fuel : Nat) (w : World F D) (ps : List (Nat × Int)) (hne : ps ≠ []) :
    step m fuel w (.setInteger (some (ps.map Prod.fst)) ps.length (some (ps.map Prod.snd))) =
      each m fuel (fun p => .setInteger (some [p.1]) 1 (some [p.2])) w ps >>- fun (w', s, _) => .ret (w', s, .unit) :=
  set_step (k := fun c => setInteger m c (some (ps.map Prod.fst)) ps.length (some (ps.map Prod.snd)))
    (one := fun c p => setInteger m c (some [p.1]) 1 (some [p.2])) rfl (fun _ _ => rfl)
    (set_each (t := .int32) hne (fun p _ => hm.markSet .int32 p.1) w.inst)

/-- **C14**, FMI 2.0, `fmi2SetBoolean`. -/
theorem C14_fmi2_setBoolean (hm : RefFMU2 m) (fuel : Nat) (w : World F D) (ps : List (Nat × Int)) (hne : ps ≠ []) :
    step m fuel w (.setBoolean (some (ps.map Prod.fst)) ps.length (some (ps.map Prod.snd))) =
      each m fuel (fun p => .setBoolean (some [p.1]) 1 (some [p.2])) w ps >>- fun (w', s, _) => .ret (w', s, .unit) :=
  set_step (k := fun c => setBoolean m c (some (ps.map Prod.fst)) ps.length (some (ps.map Prod.snd)))
    (one := fun c p => setBoolean m c (some [p.1]) 1 (some [p.2])) rfl (fun _ _ => rfl)
    (setBoolean_each hne (fun p _ => hm.markSet .boolean p.1) w.inst)

/-- **C14**, FMI 2.0, `fmi2SetString`. -/
theorem C14_fmi2_setString (hm : RefFMU2 m) (fuel : Nat) (w : World F D) (ps : List (Nat × Ptr UInt8)) (hne : ps ≠ []) :
    step m fuel w (.setString (some (ps.map Prod.fst)) ps.length (some (ps.map Prod.snd))) =
      each m fuel (fun p => .setString (some [p.1]) 1 (some [p.2])) w ps >>- fun (w', s, _) => .ret (w', s, .unit) :=
  set_step (k := fun c => setString m c (some (ps.map Prod.fst)) ps.length (some (ps.map Prod.snd)))
    (one := fun c p => setString m c (some [p.1]) 1 (some [p.2])) rfl (fun _ _ => rfl)
    (set_each (t := .string) hne (fun p _ => hm.markSet .string p.1) w.inst)

/-- Non-vacuity: three variables of Feedthrough are set and read in one call; the third of three
references is unknown and is reported after the first two were read. -/
example : (Ex.run2 (Feedthrough.model false) .coSimulation (Ex.init2 ++
    [.setReal (some [7, 9]) 2 (some [.fin 5, .fin 6]), .getReal (some [8, 10, 7]) 3 (some [.fin 0, .fin 0, .fin 0]),
      .getReal (some [8, 10, 77]) 3 (some [.fin 0, .fin 0, .fin 1])])).is (fun x =>
      x.2.drop 3 == [(.OK, .unit), (.OK, .reals (some [.fin 5, .fin 6, .fin 5])),
        (.Error, .reals (some [.fin 5, .fin 6, .fin 1]))]) = true := by
  decide +kernel

end FMI2

namespace FMI3
variable {m : Model F D}

/-- **C14**, FMI 3.0, the Get functions of all data types, for the FMUs with only scalar
variables. -/
theorem C14_fmi3_get (hm : ScalarFMU3 m) (fuel : Nat) (t : VType) (w w' : World F D) (s : Status) (o : Out F)
    (rs : List Nat) (hne : rs ≠ []) (l : List (t.Val F)) (hl : rs.length ≤ l.length) (x : t.Val F) :
    step m fuel w (.get t (some rs) rs.length (some l) rs.length) = .ret (w', s, o) ↔
      ∃ vs : List (t.Val F),
        each m fuel (fun r => .get t (some [r]) 1 (some [x]) 1) w rs =
          .ret (w', s, vs.map fun v => .values t (some [v])) ∧
        o = .values t (some (vs ++ l.drop vs.length)) :=
  fits_step (out := Out.values t) (k := fun c => getVars m t c (some rs) rs.length (some l) rs.length)
    (one := fun c r => getVars m t c (some [r]) 1 (some [x]) 1) rfl (fun _ _ => rfl)
    (get_fits hm.ref.eff.okOrError x hne (fun r _ => hm.uniGet t r) w.inst l hl)
    (fun p q h => by simpa using h)

/-- **C14**, FMI 3.0, the Get functions of the StateSpace FMU for references of scalars: its arrays
are the Float64 variables 4 to 12. -/
theorem C14_fmi3_get_stateSpace (fuel : Nat) (t : VType) (w w' : World F (StateSpace.Data F)) (s : Status) (o : Out F)
    (rs : List Nat) (hne : rs ≠ []) (hrs : t = .float64 → ∀ r ∈ rs, r < 4 ∨ 12 < r)
    (l : List (t.Val F)) (hl : rs.length ≤ l.length) (x : t.Val F) :
    step StateSpace.model fuel w (.get t (some rs) rs.length (some l) rs.length) = .ret (w', s, o) ↔
      ∃ vs : List (t.Val F),
        each StateSpace.model fuel (fun r => .get t (some [r]) 1 (some [x]) 1) w rs =
          .ret (w', s, vs.map fun v => .values t (some [v])) ∧
        o = .values t (some (vs ++ l.drop vs.length)) :=
  fits_step (out := Out.values t)
    (k := fun c => getVars StateSpace.model t c (some rs) rs.length (some l) rs.length)
    (one := fun c r => getVars StateSpace.model t c (some [r]) 1 (some [x]) 1) rfl (fun _ _ => rfl)
    (get_fits (RefFMU3.eff .stateSpace).okOrError x hne (fun r hr => StateSpace.uniGet t r fun h => hrs h r hr)
      w.inst l hl)
    (fun p q h => by simpa using h)

/-- **C14**, FMI 3.0, the Set functions of all data types, for the FMUs with only scalar variables:
a call for the pairs `ps` succeeds exactly if single calls for the pairs all succeed, and then leaves
the instance in the same state. -/
theorem C14_fmi3_set (hm : ScalarFMU3 m) (fuel : Nat) (t : VType) (w w' : World F D) (o : Out F)
    (ps : List (Nat × t.Val F)) (hne : ps ≠ []) :
    step m fuel w (.set t (some (ps.map Prod.fst)) ps.length (some (ps.map Prod.snd)) ps.length) = .ret (w', .OK, o) ↔
      o = .unit ∧ ∃ os, each m fuel (fun p => .set t (some [p.1]) 1 (some [p.2]) 1) w ps = .ret (w', .OK, os) := by
  have hu : ∀ p ∈ ps, m.UniSet t p.1 := fun p _ => hm.uniSet t p.1
  have e := set_each' hne hu w.inst
  have d1 : ∀ c, setVars m t w.inst (some (ps.map Prod.fst)) ps.length (some (ps.map Prod.snd)) ps.length =
      .ret (c, .OK, ()) → c.setDirty true = c := fun c h => setVars_dirty hne hu h
  have d2 : ∀ c, (eachC (fun c (p : Nat × t.Val F) => setVars m t c (some [p.1]) 1 (some [p.2]) 1) w.inst ps >>-
      fun (c, s, _) => .ret (c, s, ())) = .ret (c, .OK, ()) → c.setDirty true = c := fun c h => each_dirty hne hu h
  have e2 : ∀ w : World F D, ∀ p : Nat × t.Val F, step m fuel w (.set t (some [p.1]) 1 (some [p.2]) 1) =
    w.run (setVars m t w.inst (some [p.1]) 1 (some [p.2]) 1) fun _ => .unit := fun _ _ => rfl
  rw [each_eq (one := fun c (p : Nat × t.Val F) => setVars m t c (some [p.1]) 1 (some [p.2]) 1) (out := fun _ => .unit) e2]
  simp only [step, World.run]
  generalize setVars m t w.inst (some (ps.map Prod.fst)) ps.length (some (ps.map Prod.snd)) ps.length = r1 at e d1
  generalize eachC (fun c (p : Nat × t.Val F) => setVars m t c (some [p.1]) 1 (some [p.2]) 1) w.inst ps = r2 at e d2
  rcases r1 with ⟨c1, s1, ⟨⟩⟩ | _ | _ <;> rcases r2 with ⟨c2, s2, l2⟩ | _ | _ <;> simp [undirty] at e ⊢
  obtain ⟨e, rfl⟩ := e
  constructor
  · rintro ⟨rfl, rfl, rfl⟩
    have := d1 c1 rfl
    have := d2 c2 rfl
    refine ⟨rfl, ⟨?_, rfl⟩⟩
    simp_all
  · rintro ⟨rfl, rfl, rfl⟩
    have := d1 c1 rfl
    have := d2 c2 rfl
    refine ⟨?_, rfl, rfl⟩
    simp_all

/-- Non-vacuity. -/
example : (Ex.runCS3 (Feedthrough.model true) false false (Ex.init3 ++
    [.set .float64 (some [7, 9]) 2 (some [.fin 5, .fin 6]) 2,
      .get .float64 (some [8, 10, 7]) 3 (some [.fin 0, .fin 0, .fin 0]) 3,
      .set .int8 (some [11]) 1 (some [3]) 1, .get .int8 (some [12, 11]) 2 (some [0, 0]) 2,
      .get .float64 (some [8, 10, 77]) 3 (some [.fin 0, .fin 0, .fin 1]) 3])).is (fun x =>
      x.2.drop 2 == [(.OK, .unit), (.OK, .values .float64 (some [.fin 5, .fin 6, .fin 5])),
        (.OK, .unit), (.OK, .values .int8 (some [3, 3])),
        (.Error, .values .float64 (some [.fin 5, .fin 6, .fin 1]))]) = true := by
  decide +kernel

end FMI3
end Verif
