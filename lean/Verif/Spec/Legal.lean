import Verif.Spec.Close
import Verif.Spec.Expected
import Verif.RefFMUs
import Verif.XRat

/-!
# Specification: calls that must succeed

What the model descriptions (`<FMU>/FMI2.xml`, `<FMU>/FMI3.xml`) and the FMI standard tell an importer about the arguments of a call:
which variables there are, when they may be set and to which values, how many continuous states and event indicators there are,
which optional functions are provided. The modes of the functions are in `Verif.Spec.Modes2` and `Verif.Spec.Modes3`.
-/

namespace Verif
variable {F D : Type}

/-- When a variable may be set (as far as its Set function is allowed at all). -/
inductive Access
  /-- never: outputs, derivatives, constants, the time -/
  | never
  /-- whenever the Set function is allowed -/
  | always
  /-- only before and during initialization -/
  | start
  /-- a state: before and during initialization, and in Model Exchange also later -/
  | state
  /-- a fixed parameter: in Model Exchange only before and during initialization -/
  | fixed
  /-- a tunable parameter or discrete input: in Model Exchange only before and during initialization and in Event Mode -/
  | discrete
  deriving DecidableEq, Repr

/-- The modes in which a variable may be set. -/
def Access.allows (a : Access) (typ : IType) (mode : Mode) : Prop :=
  match a with
  | .never => False
  | .always => True
  | .start => mode = .instantiated ∨ mode = .initializationMode
  | .state => mode = .instantiated ∨ mode = .initializationMode ∨ mode = .continuousTimeMode ∨ mode = .eventMode
  | .fixed => typ = .modelExchange → mode = .instantiated ∨ mode = .initializationMode
  | .discrete => typ = .modelExchange → mode = .instantiated ∨ mode = .initializationMode ∨ mode = .eventMode

/-- What an importer knows about an FMU. -/
structure Profile (F D : Type) where
  /-- the variables: type, value reference, when to set -/
  vars : List (VType × Nat × Access)
  /-- restrictions of the value of a variable -/
  admits : (t : VType) → (vr : Nat) → t.Val F → Prop := fun _ _ _ => True
  /-- number of continuous states -/
  states : Nat := 0
  /-- number of event indicators -/
  indicators : Nat := 0
  /-- partial derivatives are provided -/
  partialDerivatives : Bool := false
  /-- the variables whose first derivatives the output derivatives function returns, if it is provided -/
  outputDerivatives : Option (List Nat) := none
  /-- clocks can be activated -/
  clocks : Bool := false
  /-- output clocks -/
  outputClocks : List Nat := []
  /-- clocks with a varying interval -/
  intervals : List Nat := []
  /-- clocks of the model partitions -/
  partitions : List Nat := []
  /-- what the FMU needs from its environment -/
  needs : Ctx F → Prop := fun _ => True
  /-- the simulation is over: the FMU has requested its termination -/
  over : D → Prop := fun _ => False

/-- There is such a variable of type `t`. -/
def Profile.declares (p : Profile F D) (t : VType) (r : Nat) : Prop := ∃ a, (t, r, a) ∈ p.vars

/-- The variable may be set to the value in the mode. -/
def Profile.settable (p : Profile F D) (typ : IType) (mode : Mode) (t : VType) (r : Nat) (v : t.Val F) : Prop :=
  ∃ a, (t, r, a) ∈ p.vars ∧ a.allows typ mode ∧ p.admits t r v

/-- BouncingBall/FMI2.xml 62-87, BouncingBall/FMI3.xml 51-62 -/
def Profile.bouncingBall : Profile F (BouncingBall.Data F) where
  vars := [(.float64, 0, .never), (.float64, 1, .state), (.float64, 2, .never), (.float64, 3, .state),
    (.float64, 4, .never), (.float64, 5, .fixed), (.float64, 6, .discrete), (.float64, 7, .never)]
  states := 2
  indicators := 1
  outputDerivatives := some [1, 3]

/-- Dahlquist/FMI2.xml 38-51, Dahlquist/FMI3.xml 30-35 -/
def Profile.dahlquist : Profile F (Dahlquist.Data F) where
  vars := [(.float64, 0, .never), (.float64, 1, .always), (.float64, 2, .never), (.float64, 3, .fixed)]
  states := 1

/-- VanDerPol/FMI2.xml 40-59, VanDerPol/FMI3.xml 34-41 -/
def Profile.vanDerPol : Profile F (VanDerPol.Data F) where
  vars := [(.float64, 0, .never), (.float64, 1, .always), (.float64, 2, .never), (.float64, 3, .always),
    (.float64, 4, .never), (.float64, 5, .discrete)]
  states := 2
  partialDerivatives := true

/-- Roberts/FMI3.xml 34-46 -/
def Profile.roberts : Profile F (Roberts.Data F) where
  vars := [(.float64, 0, .never), (.boolean, 1, .always), (.float64, 2, .always), (.float64, 3, .never),
    (.float64, 4, .always), (.float64, 5, .never), (.float64, 6, .always), (.float64, 7, .never), (.float64, 8, .never),
    (.float64, 9, .never), (.float64, 10, .never)]
  states := 2
  indicators := 2
  partialDerivatives := true

/-- Stair/FMI2.xml 38-45, Stair/FMI3.xml 31-34: the counter starts below 10 and
ends the simulation when it reaches 10. -/
def Profile.stair : Profile F Stair.Data where
  vars := [(.float64, 0, .never), (.int32, 1, .start)]
  admits t _ v := match t, v with
    | .int32, (v : Int) => v < 10
    | _, _ => True
  over d := 10 ≤ d.counter

/-- Resource/FMI2.xml 38-45, Resource/FMI3.xml 30-33. The resource file must exist (which file that is, is the subject of C40
and C54). -/
def Profile.resource (fmi3 : Bool) (fs : Resource.FileSystem) : Profile F Resource.Data where
  vars := [(.float64, 0, .never), (.int32, 1, .never)]
  needs ctx := ∃ path b, Resource.resourcePath fmi3 ctx.resourceLocation = .ret (.path path) ∧ fs path = some b

/-- Clocks/FMI3.xml 9-22 -/
def Profile.clocksFMU : Profile F (Clocks.Data F) where
  vars := [(.float64, 0, .never), (.int32, 2001, .never), (.int32, 2002, .never), (.int32, 2003, .never),
    (.int32, 2004, .never), (.int32, 2005, .never), (.int32, 2006, .always), (.int32, 2007, .never)]
  clocks := true
  outputClocks := [1005]
  intervals := [1003]
  partitions := [1001, 1002, 1003]

/-- The value is legal for the Feedthrough variable: enumerations have the items 1 and 2, strings have less than 128 bytes, binaries
at most 128. -/
def Profile.feedthroughAdmits (t : VType) (r : Nat) (v : t.Val F) : Prop :=
  match t, v with
  | .int32, (v : Int) => r = 33 → v = 1 ∨ v = 2
  | .int64, (v : Int) => r = 33 → v = 1 ∨ v = 2
  | .string, (v : Ptr UInt8) => ∃ s, v = some s ∧ s.length < 128
  | .binary, (v : CBinary) => v.size ≤ 128
  | _, _ => True

/-- The variables of Feedthrough, Feedthrough/FMI2.xml 47-93, Feedthrough/FMI3.xml 38-94, with the enumerations of type `enum`. The
variable 28 (Boolean_output) can be set although it is declared as an output. -/
def Profile.feedthroughVars (enum : VType) : List (VType × Nat × Access) :=
  [(.float64, 0, .never), (.float32, 1, .always), (.float32, 2, .never), (.float32, 3, .discrete), (.float32, 4, .never),
    (.float64, 5, .fixed), (.float64, 6, .discrete), (.float64, 7, .always), (.float64, 8, .never), (.float64, 9, .discrete),
    (.float64, 10, .never), (.int8, 11, .always), (.int8, 12, .never), (.uint8, 13, .always), (.uint8, 14, .never),
    (.int16, 15, .always), (.int16, 16, .never), (.uint16, 17, .always), (.uint16, 18, .never), (.int32, 19, .always),
    (.int32, 20, .never), (.uint32, 21, .always), (.uint32, 22, .never), (.int64, 23, .always), (.int64, 24, .never),
    (.uint64, 25, .always), (.uint64, 26, .never), (.boolean, 27, .always), (.boolean, 28, .always), (.string, 29, .always),
    (.string, 30, .never), (.binary, 31, .always), (.binary, 32, .never), (enum, 33, .always), (enum, 34, .never)]

/-- Feedthrough in FMI 2.0 (`fmi3 = false`) and FMI 3.0. -/
def Profile.feedthrough (fmi3 : Bool) : Profile F (Feedthrough.Data F) where
  vars := feedthroughVars (if fmi3 then .int64 else .int32)
  admits := feedthroughAdmits

/-- The FMUs built for FMI 2.0 with their profiles. -/
inductive FMI2.Describes [Arith F] : {D : Type} → Model F D → Profile F D → Prop
  | bouncingBall : Describes BouncingBall.model .bouncingBall
  | dahlquist : Describes Dahlquist.model .dahlquist
  | feedthrough : Describes (Feedthrough.model false) (.feedthrough false)
  | resource (fs : Resource.FileSystem) : Describes (Resource.model false fs) (.resource false fs)
  | stair : Describes Stair.model .stair
  | vanDerPol : Describes VanDerPol.model .vanDerPol

/-- The FMUs built for FMI 3.0 (without StateSpace) with their profiles. -/
inductive FMI3.Describes [Arith F] : {D : Type} → Model F D → Profile F D → Prop
  | bouncingBall : Describes BouncingBall.model .bouncingBall
  | clocks : Describes Clocks.model .clocksFMU
  | dahlquist : Describes Dahlquist.model .dahlquist
  | feedthrough : Describes (Feedthrough.model true) (.feedthrough true)
  | resource (fs : Resource.FileSystem) : Describes (Resource.model true fs) (.resource true fs)
  | roberts : Describes Roberts.model .roberts
  | stair : Describes Stair.model .stair
  | vanDerPol : Describes VanDerPol.model .vanDerPol

/-- The array has an element `a` at position `i`. -/
def Ptr.At {α : Type} (q : Ptr α) (i : Nat) (a : α) : Prop := ∃ l, q = some l ∧ l[i]? = some a

/-- A step of size `h` from the communication point `ccp` fits the expected communication point and the stop time. -/
inductive Clock.Accepts (k : Clock XRat) : (ccp h : XRat) → Prop
  | mk {a e q : Rat} : k.expected = .fin e → Close a e → 0 < q →
      (k.stop = .pinf ∨ ∃ s, k.stop = .fin s ∧ (a + q ≤ s ∨ Close (a + q) s)) → Accepts k (.fin a) (.fin q)

/-- The first `n` value references are variables of type `t`. -/
def Profile.gets (p : Profile F D) (t : VType) (vr : Ptr Nat) (n : Nat) : Prop :=
  ∀ i < n, ∃ r, vr.At i r ∧ p.declares t r

/-- The first `n` variables may be set to the values. -/
def Profile.sets (p : Profile F D) (typ : IType) (mode : Mode) (t : VType) (vr : Ptr Nat) (n : Nat) (v : Ptr (t.Val F)) : Prop :=
  ∀ i < n, ∃ r x, vr.At i r ∧ v.At i x ∧ p.settable typ mode t r x

/-- The arrays have the announced number of elements, which is the number `k` of states or event indicators. -/
def HasCount (k : Nat) (q : Ptr F) (n : Nat) : Prop := n = k ∧ (n ≠ 0 → q ≠ none)

/-- The log categories of the Reference FMUs. -/
def LogCategories (n : Nat) (cats : Ptr (Option String)) : Prop :=
  ∀ i < n, cats.At i (some "logEvents") ∨ cats.At i (some "logStatusError")

/-- The arguments of an FMI 2.0 call are as the model description and the standard require. `DoStep` is treated separately
(`Clock.Accepts`). -/
def FMI2.Args (m : Model F D) (p : Profile F D) (w : FMI2.World F D) : FMI2.Op F → Prop
  | .setDebugLogging _ n cats => LogCategories n cats
  | .getReal vr n v => p.gets .float64 vr n ∧ (n ≠ 0 → v ≠ none)
  | .getInteger vr n v => p.gets .int32 vr n ∧ (n ≠ 0 → v ≠ none)
  | .getBoolean vr n _ => p.gets .boolean vr n
  | .getString vr n v => p.gets .string vr n ∧ (n ≠ 0 → v ≠ none)
  | .setReal vr n v => p.sets w.inst.ctx.typ w.inst.ctx.state .float64 vr n v
  | .setInteger vr n v => p.sets w.inst.ctx.typ w.inst.ctx.state .int32 vr n v
  | .setBoolean vr n v => p.sets w.inst.ctx.typ w.inst.ctx.state .boolean vr n (v.map fun l => l.map fun x => decide (x ≠ 0))
  | .setString vr n v => p.sets w.inst.ctx.typ w.inst.ctx.state .string vr n v
  | .serializeFMUstate slot _ size => w.slots slot ≠ none ∧ size = m.sizeOf
  | .deSerializeFMUstate _ size _ => size = m.sizeOf
  | .getDirectionalDerivative _ nu _ nk _ _ => nu = 0 ∨ nk = 0 ∨ p.partialDerivatives = true
  | .getRealOutputDerivatives vr n order _ =>
    ∃ l, p.outputDerivatives = some l ∧ ∀ i < n, ∃ r ∈ l, vr.At i r ∧ order.At i 1
  | .setRealInputDerivatives | .cancelStep | .getStatus _ | .getIntegerStatus _ | .getStringStatus _ => False
  | .getRealStatus s _ => s = .lastSuccessfulTime
  | .getBooleanStatus s _ => s = .terminated
  | .completedIntegratorStep a b => a ≠ none ∧ b ≠ none
  | .setContinuousStates x n | .getDerivatives x n | .getContinuousStates x n | .getNominals x n => HasCount p.states x n
  | .getEventIndicators x n => HasCount p.indicators x n
  | _ => True

/-- The arguments of an FMI 3.0 call are as the model description and the standard require. `DoStep` is treated separately
(`Clock.Accepts`). If no variables are accessed, the number of values is not looked at; `fmi3GetBinary` accepts more values than
variables. -/
def FMI3.Args (m : Model F D) (p : Profile F D) (w : FMI3.World F D) : FMI3.Op F → Prop
  | .setDebugLogging _ n cats => LogCategories n cats
  | .get t vr n v nv => n = 0 ∨ (p.gets t vr n ∧ v ≠ none ∧ if t = .binary then n ≤ nv else n = nv)
  | .set t vr n v nv => n = 0 ∨ (p.sets w.inst.ctx.typ w.inst.ctx.state t vr n v ∧ n = nv)
  | .getClock vr n _ => ∀ i < n, ∃ r ∈ p.outputClocks, vr.At i r
  | .setClock _ n v => ∀ i < n, v.At i true → p.clocks = true
  | .setFMUState slot => w.slots slot ≠ none
  | .serializeFMUState slot _ size => w.slots slot ≠ none ∧ size = m.sizeOf
  | .deserializeFMUState _ size _ => size = m.sizeOf
  | .getDirectionalDerivative _ nu _ nk _ _ | .getAdjointDerivative _ nu _ nk _ _ =>
    nu = 0 ∨ nk = 0 ∨ p.partialDerivatives = true
  | .getIntervalDecimal vr n _ _ => ∀ i < n, ∃ r ∈ p.intervals, vr.At i r
  | .completedIntegratorStep a b => a ≠ none ∧ b ≠ none
  | .setContinuousStates x n | .getDerivatives x n | .getContinuousStates x n | .getNominals x n => HasCount p.states x n
  | .getEventIndicators x n => HasCount p.indicators x n
  | .getOutputDerivatives vr n orders _ =>
    ∃ l, p.outputDerivatives = some l ∧ ∀ i < n, ∃ r ∈ l, vr.At i r ∧ orders.At i 1
  | .activateModelPartition clock _ => clock ∈ p.partitions
  | .notImplemented _ => False
  | _ => True

end Verif
