import Verif.Props.C40
import Verif.Props.C41

/-!
# C55: importer and Resource FMU agree on the resource location

The importer turns the path of the resources directory into a URI (`FMIPathToURI`) and passes it
to the FMI 2.0 Resource FMU, which decodes it.
-/

set_option linter.unusedSectionVars false

namespace Verif.Resource
open Verif Spec

/-- **C55, partial.** For every absolute path of characters that `FMIPathToURI` encodes correctly
(see C41) with at most 4095 bytes after encoding: if `FMIPathToURI` succeeds and the C string in the
buffer is passed to `fmi2Instantiate`, then after every history of calls the Resource FMU reports
the content of the file `y.txt` in the directory the importer started from.
Missing: paths with other bytes and longer paths, for which it is false. -/
theorem C55_partial {F : Type} [Arith F] [HasInf F] {fs : FileSystem} (signedChar : Bool)
    {path buf buf' uri : List UInt8} {uriLength : Nat} {c : Option UInt8} {w : FMI2.World F Data}
    (hpath : ∀ c ∈ path, 16 ≤ c.toNat ∧ (signedChar = true → c.toNat < 128))
    (habs : path.head? = some 47) (hbuf : uriLength ≤ buf.length)
    (he : Importer.pathToURI signedChar path (some buf) uriLength = .ret (.OK, some buf'))
    (huri : HoldsString buf' uri) (hlen : uri.length ≤ 4095)
    (hq : (path ++ Spec.ascii "/y.txt").length ≤ 4095)
    (hw : ReachableAt fs (some uri) w) (hf : fs (path ++ Spec.ascii "/y.txt") = some c)
    (hs : w.inst.ctx.state ∈ FMI2.Spec.allowedIn .getInteger) :
    FMI2.ReadsInteger (model false fs) w 1 (fileValue c) := by
  obtain ⟨s, b, h1, -, -, -, h2, -⟩ := Importer.C41_partial signedChar path buf uriLength hpath hbuf
  rw [he] at h1
  cases h1
  obtain ⟨e, ⟨h3, r, rfl⟩, h4, h7, -⟩ := h2 rfl
  obtain ⟨h5, r', h6⟩ := huri
  have : uri = Spec.ascii "file://" ++ e := Importer.cstring_unique (a := Importer.ascii "file://" ++ e) h3 h5 h6.symm
  subst this
  refine C40_partial hw ⟨h7 habs, .inl rfl⟩ h4 ?_ ?_ hq hf hs
  · intro h0
    have := (hpath 0 h0).1
    simp at this
  · rw [List.length_append] at hlen; omega

/-- A path with a space meets the hypotheses on the path; the URI is `file:///a%20b`. -/
example : Importer.pathToURI true (Spec.ascii "/a b") (some (List.replicate 24 7)) 23 =
      .ret (.OK, some (Spec.ascii "file:///a%20b" ++ 0 :: List.replicate 10 7)) ∧
    (∀ c ∈ Spec.ascii "/a b", 16 ≤ c.toNat ∧ (true = true → c.toNat < 128)) ∧
    HoldsString (Spec.ascii "file:///a%20b" ++ 0 :: List.replicate 10 7) (Spec.ascii "file:///a%20b") := by
  refine ⟨by decide +kernel, by decide +kernel, by decide +kernel, _, rfl⟩

end Verif.Resource
