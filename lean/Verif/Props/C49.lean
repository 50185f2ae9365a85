import Verif.Lemmas.Fixed
import Verif.Lemmas.FeedViews
import Verif.Props.C30

/-!
# C49: fixed parameters of a Model Exchange instance do not change after the initialisation
-/

set_option linter.unusedSectionVars false

namespace Verif
variable {F : Type} [Arith F] [HasInf F]

namespace FMI2

theorem fixed_reads {D : Type} {m : Model F D} {sel : D → F} {upd : D → D} {vr : Nat} (hm : OkOrError m)
    (hf : m.Fixed Running sel) (hc : m.Calc upd) (hu : ∀ d, upd (upd d) = upd d)
    (hv : m.View upd .float64 vr fun _ d => sel d) (hs : ∀ d, sel (upd d) = sel d) {w w₁ w₂ : World F D}
    (h : Reachable m .modelExchange w) {f₁ o}
    (e₁ : step m f₁ w .exitInitializationMode = .ret (w₁, .OK, o)) {fuel : Nat} {ops : List (Op F)} {outs}
    (hops : ∀ op ∈ ops, op.fn ≠ .reset ∧ op.fn ≠ .setFMUstate)
    (e₂ : run m fuel w₁ ops = .ret (w₂, outs)) {k : F} (hk : ReadsReal m w₁ vr k) :
    ReadsReal m w₂ vr k := by
  have hre := hk.readable
  have ek := hk.unique (view_real hc hu hv hre)
  have hX : ∀ op ∈ ops, ¬ (op.fn = .reset ∨ op.fn = .setFMUstate) := fun op ho h' =>
    h'.elim (hops op ho).1 (hops op ho).2
  have hre' := run_keepX hm (Readable.callInv m) (fun {_} _ _ h => h) ops hre hX _ e₂
  have hfin := run_keepX hm (fixed_inv hf k) (fun {_} _ _ h => h) ops
    ⟨exit_running hm h e₁, (hs _).symm.trans ek.symm⟩ hX _ e₂
  have hv' := view_real hc hu hv hre'
  rw [hs, hfin.2] at hv'
  exact hv'

/-- **C49**, FMI 2.0, Dahlquist: the value `k` of the fixed parameter (value reference 3) after a
successful `fmi2ExitInitializationMode` in Model Exchange is what the FMU reports after any further
calls, successful or not, other than `fmi2Reset` and `fmi2SetFMUstate`. -/
theorem C49_fmi2_dahlquist {w w₁ w₂ : World F (Dahlquist.Data F)}
    (h : Reachable Dahlquist.model .modelExchange w) {f₁ o}
    (e₁ : step Dahlquist.model f₁ w .exitInitializationMode = .ret (w₁, .OK, o)) {fuel : Nat}
    {ops : List (Op F)} {outs} (hops : ∀ op ∈ ops, op.fn ≠ .reset ∧ op.fn ≠ .setFMUstate)
    (e₂ : run Dahlquist.model fuel w₁ ops = .ret (w₂, outs)) {k : F}
    (hk : ReadsReal Dahlquist.model w₁ 3 k) : ReadsReal Dahlquist.model w₂ 3 k :=
  fixed_reads RefFMU2.dahlquist.eff.okOrError Dahlquist.fixed_k Dahlquist.calc
    Dahlquist.ode.calc_calc Dahlquist.view_k (fun _ => rfl) h e₁ hops e₂ hk

/-- **C49**, FMI 2.0, Feedthrough: the same for `Float64_fixed_parameter` (value reference 5). -/
theorem C49_fmi2_feedthrough {w w₁ w₂ : World F (Feedthrough.Data F)}
    (h : Reachable (Feedthrough.model false) .modelExchange w) {f₁ o}
    (e₁ : step (Feedthrough.model false) f₁ w .exitInitializationMode = .ret (w₁, .OK, o)) {fuel : Nat}
    {ops : List (Op F)} {outs} (hops : ∀ op ∈ ops, op.fn ≠ .reset ∧ op.fn ≠ .setFMUstate)
    (e₂ : run (Feedthrough.model false) fuel w₁ ops = .ret (w₂, outs)) {k : F}
    (hk : ReadsReal (Feedthrough.model false) w₁ 5 k) : ReadsReal (Feedthrough.model false) w₂ 5 k :=
  fixed_reads RefFMU2.feedthrough.eff.okOrError Feedthrough.fixed_param Feedthrough.calc_upd
    Feedthrough.upd_upd Feedthrough.view_fixed (fun _ => rfl) h e₁ hops e₂ hk

/-- Non-vacuity: the parameter is set to 7 before the end of the initialisation; afterwards setting
the input `x` works, and an attempt to set `k` to 9 fails and leaves 7. -/
example : (Ex.run2 Dahlquist.model .modelExchange [.setReal (some [3]) 1 (some [.fin 7]),
    .enterInitializationMode, .exitInitializationMode, .setReal (some [1]) 1 (some [.fin 4]),
    .enterContinuousTimeMode, .setReal (some [3]) 1 (some [.fin 9]),
    .getReal (some [3]) 1 (some [.fin 0])]).is
    (fun x => decide (x.2.map (·.1) = [.OK, .OK, .OK, .OK, .OK, .Error, .OK]) &&
      decide (Ex.real2 x.2 6 = some (.fin 7))) = true := by
  decide +kernel

example : (Ex.run2 (Feedthrough.model false) .modelExchange [.setReal (some [5, 6]) 2 (some [.fin 7, .fin 1]),
    .enterInitializationMode, .exitInitializationMode, .setReal (some [6, 7]) 2 (some [.fin 4, .fin 5]),
    .setReal (some [5]) 1 (some [.fin 9]), .getReal (some [5]) 1 (some [.fin 0])]).is
    (fun x => decide (x.2.map (·.1) = [.OK, .OK, .OK, .OK, .Error, .OK]) &&
      decide (Ex.real2 x.2 5 = some (.fin 7))) = true := by
  decide +kernel

end FMI2

namespace FMI3

theorem fixed_reads {D : Type} {m : Model F D} {sel : D → F} {upd : D → D} {vr : Nat} (hm : OkOrError m)
    (hf : m.Fixed Running sel) (hc : m.Calc upd) (hu : ∀ d, upd (upd d) = upd d)
    (hv : m.View upd .float64 vr fun _ d => sel d) (hs : ∀ d, sel (upd d) = sel d) {w w₁ w₂ : World F D}
    (h : Reachable m .modelExchange w) {f₁ o}
    (e₁ : step m f₁ w .exitInitializationMode = .ret (w₁, .OK, o)) {fuel : Nat} {ops : List (Op F)} {outs}
    (hops : ∀ op ∈ ops, op.fn ≠ .reset ∧ op.fn ≠ .setFMUState)
    (e₂ : run m fuel w₁ ops = .ret (w₂, outs)) {k : F} (hk : Reads m w₁ .float64 vr k) :
    Reads m w₂ .float64 vr k := by
  have h1 := Reachable.call hm h e₁
  have ek := hk.unique (view hc hu hv (h1.readable hm))
  have hre' := (Reachable.run hm h1 e₂).readable hm
  have hX : ∀ op ∈ ops, ¬ (op.fn = .reset ∨ op.fn = .setFMUState) := fun op ho h' =>
    h'.elim (hops op ho).1 (hops op ho).2
  have hfin := run_keepX hm (fixed_inv hf k) (fun {_} _ _ h => h) ops
    ⟨exit_running hm h e₁, (hs _).symm.trans ek.symm⟩ hX _ e₂
  have hv' := view hc hu hv hre'
  rw [hs, hfin.2] at hv'
  exact hv'

/-- **C49**, FMI 3.0, Dahlquist. -/
theorem C49_fmi3_dahlquist {w w₁ w₂ : World F (Dahlquist.Data F)}
    (h : Reachable Dahlquist.model .modelExchange w) {f₁ o}
    (e₁ : step Dahlquist.model f₁ w .exitInitializationMode = .ret (w₁, .OK, o)) {fuel : Nat}
    {ops : List (Op F)} {outs} (hops : ∀ op ∈ ops, op.fn ≠ .reset ∧ op.fn ≠ .setFMUState)
    (e₂ : run Dahlquist.model fuel w₁ ops = .ret (w₂, outs)) {k : F}
    (hk : Reads Dahlquist.model w₁ .float64 3 k) : Reads Dahlquist.model w₂ .float64 3 k :=
  fixed_reads RefFMU3.dahlquist.eff.okOrError Dahlquist.fixed_k Dahlquist.calc
    Dahlquist.ode.calc_calc Dahlquist.view_k (fun _ => rfl) h e₁ hops e₂ hk

/-- **C49**, FMI 3.0, Feedthrough. -/
theorem C49_fmi3_feedthrough {w w₁ w₂ : World F (Feedthrough.Data F)}
    (h : Reachable (Feedthrough.model true) .modelExchange w) {f₁ o}
    (e₁ : step (Feedthrough.model true) f₁ w .exitInitializationMode = .ret (w₁, .OK, o)) {fuel : Nat}
    {ops : List (Op F)} {outs} (hops : ∀ op ∈ ops, op.fn ≠ .reset ∧ op.fn ≠ .setFMUState)
    (e₂ : run (Feedthrough.model true) fuel w₁ ops = .ret (w₂, outs)) {k : F}
    (hk : Reads (Feedthrough.model true) w₁ .float64 5 k) :
    Reads (Feedthrough.model true) w₂ .float64 5 k :=
  fixed_reads RefFMU3.feedthrough.eff.okOrError Feedthrough.fixed_param Feedthrough.calc_upd
    Feedthrough.upd_upd Feedthrough.view_fixed (fun _ => rfl) h e₁ hops e₂ hk

/-- Non-vacuity, with a reconfiguration in between. -/
example : (Ex.runME3 Dahlquist.model [.set .float64 (some [3]) 1 (some [.fin 7]) 1,
    .enterInitializationMode (.fin 0) false (.fin 0), .exitInitializationMode, .enterConfigurationMode,
    .set .float64 (some [3]) 1 (some [.fin 9]) 1, .get .float64 (some [3]) 1 (some [.fin 0]) 1]).is
    (fun x => decide (x.2.map (·.1) = [.OK, .OK, .OK, .OK, .Error, .OK]) &&
      decide (Ex.real3 x.2 5 = some (.fin 7))) = true := by
  decide +kernel

example : (Ex.runME3 (Feedthrough.model true) [.set .float64 (some [5]) 1 (some [.fin 7]) 1,
    .enterInitializationMode (.fin 0) false (.fin 0), .exitInitializationMode,
    .set .float64 (some [6]) 1 (some [.fin 8]) 1, .set .float64 (some [5]) 1 (some [.fin 9]) 1,
    .get .float64 (some [5]) 1 (some [.fin 0]) 1]).is
    (fun x => decide (x.2.map (·.1) = [.OK, .OK, .OK, .OK, .Error, .OK]) &&
      decide (Ex.real3 x.2 5 = some (.fin 7))) = true := by
  decide +kernel

end FMI3
end Verif
