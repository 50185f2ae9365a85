import Verif.Lemmas.LensReads
import Verif.Examples

/-!
# C12: what was set is read back, and nothing else changes

`Independent m I` lists the independent variables of an FMU (Spec/Independent.lean). All theorems hold
for every instance state, reachable or not. `Reads m w t r u` in a hypothesis says that the mode allows
reading: the getters are never refused otherwise.
-/

set_option linter.unusedSectionVars false

namespace Verif
variable {F D : Type} [Arith F] [HasInf F] {m : Model F D} {I : List (VType × Nat)}

namespace FMI2

/-- **C12**, FMI 2.0. After a successful set of an independent variable that can be read, it reads as
the value set; every other independent variable reads as before. -/
theorem C12_fmi2_partial (hm : RefFMU2 m) (hI : Independent m I) {op : Op F} {t : VType} {r : Nat} {v : t.Val F}
    (hv : (t, r) ∈ I) (hop : SetCall op t r v) {fuel : Nat} {w w' : World F D} {o : Out F}
    (e : step m fuel w op = .ret (w', .OK, o)) :
    (∀ u, Reads m w t r u → Reads m w' t r v) ∧
    ∀ t' r' u', (t', r') ∈ I → (t', r') ≠ (t, r) → Reads m w t' r' u' → Reads m w' t' r' u' := by
  obtain ⟨R, l, hIR, hl⟩ := hI.lens
  obtain ⟨h1, h2, h3⟩ := set_lens hm l hl hop hv e
  have hmv : t.meant v = v := by cases hop <;> rfl
  refine ⟨fun u hu => ?_, fun t' r' u' h hne hu => ?_⟩
  · have := reads_lens l (hIR hv) hu.hasType (w := w') (by rw [h1]; exact hu.allowed)
    rwa [h2, hmv] at this
  · have := reads_lens l (hIR h) hu.hasType (w := w') (by rw [h1]; exact hu.allowed)
    rw [h1, h3 t' r' h hne] at this
    rwa [hu.unique (reads_lens l (hIR h) hu.hasType hu.allowed)]

/-- **C12**, FMI 2.0, for a variable set in Instantiated Mode, which can only be read after
`fmi2EnterInitializationMode`. -/
theorem C12_fmi2_instantiated_partial (hm : RefFMU2 m) (hI : Independent m I) {op : Op F} {t : VType} {r : Nat}
    {v : t.Val F} (hv : (t, r) ∈ I) (hop : SetCall op t r v) {f₁ f₂ f₃ : Nat} {w w₁ w₂ w₃ : World F D} {o₁ o₂ o₃ : Out F}
    (e₁ : step m f₁ w op = .ret (w₁, .OK, o₁))
    (e₂ : step m f₂ w₁ .enterInitializationMode = .ret (w₂, .OK, o₂))
    (e₃ : step m f₃ w .enterInitializationMode = .ret (w₃, .OK, o₃)) :
    Reads m w₂ t r v ∧
    ∀ t' r' u', (t', r') ∈ I → (t', r') ≠ (t, r) → Reads m w₃ t' r' u' → Reads m w₂ t' r' u' := by
  obtain ⟨R, l, hIR, hl⟩ := hI.lens
  obtain ⟨h1, h2, h3⟩ := set_lens hm l hl hop hv e₁
  have hmv : t.meant v = v := by cases hop <;> rfl
  have ht : hasType t := by cases hop <;> simp [hasType]
  have enter : ∀ {f : Nat} {w w' : World F D} {o}, step m f w .enterInitializationMode = .ret (w', .OK, o) →
      w'.inst.ctx.state = .initializationMode ∧ w'.inst.ctx.time = w.inst.ctx.time ∧ w'.inst.mv = w.inst.mv := by
    intro f w w' o e
    simp only [step, World.run, enterInitializationMode, begin, beginFunction] at e
    split at e
    · cases e; exact ⟨rfl, rfl, rfl⟩
    · cases e
  obtain ⟨s2, t2, d2⟩ := enter e₂
  obtain ⟨s3, t3, d3⟩ := enter e₃
  have ha : w₂.inst.ctx.state ∈ Spec.allowedIn .getReal := by rw [s2]; simp [Spec.allowedIn]
  refine ⟨?_, fun t' r' u' h hne hu => ?_⟩
  · have := reads_lens l (hIR hv) ht ha
    rwa [d2, h2, hmv] at this
  · have := reads_lens l (hIR h) hu.hasType ha
    rw [d2, t2, h1, h3 t' r' h hne, ← t3, ← d3] at this
    rwa [hu.unique (reads_lens l (hIR h) hu.hasType hu.allowed)]

/-- Non-vacuity: in Feedthrough a real, an integer, a boolean and a string input are set one after the
other and all read back. -/
example : (Ex.run2 (Feedthrough.model false) .coSimulation (Ex.init2 ++
    [.setReal (some [9]) 1 (some [.fin 5]), .setInteger (some [19]) 1 (some [6]), .setBoolean (some [27]) 1 (some [7]),
      .setString (some [29]) 1 (some [some [65]]),
      .getReal (some [9]) 1 (some [.fin 0]), .getInteger (some [19]) 1 (some [0]), .getBoolean (some [27]) 1 (some [0]),
      .getString (some [29]) 1 (some [none])])).is (fun x =>
      x.2.drop 7 == [(.OK, .reals (some [.fin 5])), (.OK, .ints (some [6])), (.OK, .ints (some [1])),
        (.OK, .strs (some [some [65]]))]) = true := by
  decide +kernel

/-- Non-vacuity of the second theorem: the parameter `k` of Dahlquist is set in Instantiated Mode. -/
example : (Ex.run2 Dahlquist.model .modelExchange
    [.setReal (some [3]) 1 (some [.fin 5]), .enterInitializationMode, .getReal (some [3]) 1 (some [.fin 0]),
      .getReal (some [1]) 1 (some [.fin 0])]).is (fun x =>
      x.2 == [(.OK, .unit), (.OK, .unit), (.OK, .reals (some [.fin 5])), (.OK, .reals (some [.fin 1]))]) = true := by
  decide +kernel

/-- The full claim fails: `Boolean_output` of Feedthrough (value reference 28) can be set, but does
not keep the value. -/
theorem C12_violated_feedthrough : (Ex.run2 (Feedthrough.model false) .coSimulation (Ex.init2 ++
    [.setBoolean (some [28]) 1 (some [1]), .getBoolean (some [28]) 1 (some [1])])).is (fun x =>
      x.2.drop 3 == [(.OK, .unit), (.OK, .ints (some [0]))]) = true := by
  decide +kernel

end FMI2

namespace FMI3

/-- **C12**, FMI 3.0. After a successful set of an independent variable that can be read, it reads as
the value set; every other independent variable reads as before. -/
theorem C12_fmi3_partial (hm : ScalarFMU3 m) (hI : Independent m I) {t : VType} {r : Nat} {v : t.Val F}
    (hv : (t, r) ∈ I) {fuel : Nat} {w w' : World F D} {o : Out F}
    (e : step m fuel w (.set t (some [r]) 1 (some [v]) 1) = .ret (w', .OK, o)) :
    (∀ u, Reads m w t r u → Reads m w' t r (t.meant v)) ∧
    ∀ t' r' u', (t', r') ∈ I → (t', r') ≠ (t, r) → Reads m w t' r' u' → Reads m w' t' r' u' := by
  obtain ⟨R, l, hIR, hl⟩ := hI.lens
  obtain ⟨h1, h2, h3⟩ := set_lens l hl (hm.uniSet t r) hv e
  refine ⟨fun u hu => ?_, fun t' r' u' h hne hu => ?_⟩
  · have := reads_lens l (hIR hv) (w := w') (by rw [h1]; exact hu.allowed)
    rwa [h2] at this
  · have := reads_lens l (hIR h) (w := w') (by rw [h1]; exact hu.allowed)
    rw [h1, h3 t' r' h hne] at this
    rwa [hu.unique (reads_lens l (hIR h) hu.allowed)]

/-- Every independent variable can be read whenever the mode allows reading. -/
theorem C12_readable_partial (hI : Independent m I) {t : VType} {r : Nat} (hv : (t, r) ∈ I) {w : World F D}
    (hs : w.inst.ctx.state ∈ Spec.allowedIn (.get t)) : ∃ v, Reads m w t r v := by
  obtain ⟨R, l, hIR, hl⟩ := hI.lens
  exact ⟨_, reads_lens l (hIR hv) hs⟩

/-- Non-vacuity: a float, an integer and a binary input of Feedthrough. Of the three bytes passed only
the announced two count. -/
example : (Ex.runCS3 (Feedthrough.model true) false false (Ex.init3 ++
    [.set .float32 (some [1]) 1 (some [5]) 1, .set .int8 (some [11]) 1 (some [6]) 1,
      .set .binary (some [31]) 1 (some [⟨2, some [7, 8, 9]⟩]) 1,
      .get .float32 (some [1]) 1 (some [0]) 1, .get .int8 (some [11]) 1 (some [0]) 1,
      .get .binary (some [31]) 1 (some [⟨0, none⟩]) 1])).is (fun x =>
      x.2.drop 5 == [(.OK, .values .float32 (some [5])), (.OK, .values .int8 (some [6])),
        (.OK, .values .binary (some [⟨2, some [7, 8]⟩]))]) = true := by
  decide +kernel

/-- **C12**, Roberts: in DAE mode (`dae`, value reference 1, is true) `y3` (value reference 6), too, is
read back, and setting it keeps the independent variables. -/
theorem C12_roberts_y3_partial {v : F} {fuel : Nat} {w w' : World F (Roberts.Data F)} {o : Out F}
    (hd : Reads Roberts.model w .boolean 1 true)
    (e : step Roberts.model fuel w (.set .float64 (some [6]) 1 (some [v]) 1) = .ret (w', .OK, o)) :
    Reads Roberts.model w' .float64 6 v ∧
    ∀ t r u, (t, r) ∈ [(VType.float64, 0), (.boolean, 1), (.float64, 2), (.float64, 4), (.float64, 7)] →
      Reads Roberts.model w t r u → Reads Roberts.model w' t r u := by
  have hu := ScalarFMU3.roberts.uniSet (F := F) .float64 6
  simp only [step, single_set hu, World.run] at e
  obtain ⟨⟨c1, s1, u⟩, e1, h⟩ := Outcome.bind_eq_ret.1 e
  cases h
  obtain ⟨mv', j, h1, h2, h3⟩ := begin_wr (p := ((6, v) : Nat × F)) (t := .float64) hu e1
  cases h1
  have hda : w.inst.mv.data.dae = true :=
    (hd.unique (reads_lens Lens.roberts (t := .boolean) (r := 1) (by simp) hd.allowed)).symm
  refine ⟨?_, fun t r u h hu => ?_⟩
  · have := reads_lens Lens.roberts (t := .float64) (r := 6) (by simp) (w := { w with inst := c1 })
      (by rw [show ({ w with inst := c1 } : World F _).inst.ctx = w.inst.ctx from h2]; exact hd.allowed)
    have hv : Lens.roberts.val .float64 6 c1.ctx.time c1.mv.data = v := by
      rw [h3]; simp [Lens.roberts, Lens.robertsY3, hda]
    rwa [hv] at this
  · have hR : (t, r) ∈ [(VType.float64, 0), (.boolean, 1), (.float64, 2), (.float64, 3), (.float64, 4), (.float64, 5),
        (.float64, 6), (.float64, 7), (.float64, 8), (.float64, 9), (.float64, 10)] := by
      revert h; simp only [List.mem_cons, List.not_mem_nil, or_false]; rintro (h | h | h | h | h) <;> simp [h]
    have := reads_lens Lens.roberts hR (w := { w with inst := c1 })
      (by rw [show ({ w with inst := c1 } : World F _).inst.ctx = w.inst.ctx from h2]; exact hu.allowed)
    have hv : Lens.roberts.val t r c1.ctx.time c1.mv.data = Lens.roberts.val t r w.inst.ctx.time w.inst.mv.data := by
      rw [h3, h2]
      simp only [List.mem_cons, List.not_mem_nil, or_false, Prod.mk.injEq] at h
      rcases h with h | h | h | h | h <;> obtain ⟨rfl, rfl⟩ := h <;> rfl
    rw [hv] at this
    rwa [hu.unique (reads_lens Lens.roberts hR hu.allowed)]

/-- The full claim fails: in ODE mode `y3` of Roberts can be set, but does not keep the value. -/
theorem C12_violated_roberts : (Ex.runCS3 Roberts.model false false (Ex.init3 ++
    [.set .float64 (some [6]) 1 (some [.fin 5]) 1, .get .float64 (some [6]) 1 (some [.fin 5]) 1])).is (fun x =>
      x.2.drop 2 == [(.OK, .unit), (.OK, .values .float64 (some [.fin 0]))]) = true := by
  decide +kernel

/-- Non-vacuity of `C12_roberts_y3_partial`. -/
example : (Ex.runCS3 Roberts.model false false (Ex.init3 ++
    [.set .boolean (some [1]) 1 (some [true]) 1, .set .float64 (some [6]) 1 (some [.fin 5]) 1,
      .get .float64 (some [6]) 1 (some [.fin 0]) 1])).is (fun x =>
      x.2.drop 3 == [(.OK, .unit), (.OK, .values .float64 (some [.fin 5]))]) = true := by
  decide +kernel

end FMI3
end Verif
