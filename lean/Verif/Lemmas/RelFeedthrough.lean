import Verif.Lemmas.RelBase
import Verif.Models.Feedthrough

/-! Observational equivalence of Feedthrough instances. -/

set_option linter.unusedSectionVars false
set_option linter.unusedSimpArgs false
set_option linter.unusedVariables false

namespace Verif

namespace Feedthrough
variable {F : Type} [Arith F]

/-- The inputs and parameters; the outputs are recomputed before they are read. `nominalsChanged` and
`valuesChanged` are set by every event update. -/
def key (mv : MV F (Data F)) := (mv.flags, mv.data.f32ContIn, mv.data.f32DiscIn, mv.data.fixedParam, mv.data.tunableParam, mv.data.f64ContIn, mv.data.f64DiscIn, mv.data.int8In, mv.data.uint8In, mv.data.int16In, mv.data.uint16In, mv.data.int32In, mv.data.uint32In, mv.data.int64In, mv.data.uint64In, mv.data.boolIn, mv.data.strIn, mv.data.binIn, mv.data.enumIn)

theorem get_getFloat32 {mv mv' : MV F (Data F)} {ctx ctx' : Ctx F} (vr p n i) (hc : CtxRel ctx ctx')
    (h : Same key mv mv') : MRel (Same key) (getFloat32 ctx mv vr p n i) (getFloat32 ctx' mv' vr p n i) := by
  obtain ⟨a1, a2, a3, a4, a5, a6, a7, a8, ⟨d_f32ContIn, d_f32ContOut, d_f32DiscIn, d_f32DiscOut, d_fixedParam, d_tunableParam, d_f64ContIn, d_f64ContOut, d_f64DiscIn, d_f64DiscOut, d_int8In, d_int8Out, d_uint8In, d_uint8Out, d_int16In, d_int16Out, d_uint16In, d_uint16Out, d_int32In, d_int32Out, d_uint32In, d_uint32Out, d_int64In, d_int64Out, d_uint64In, d_uint64Out, d_boolIn, d_boolOut, d_strIn, d_strOut, d_binIn, d_binOut, d_enumIn, d_enumOut⟩, a9⟩ := mv
  obtain ⟨b1, b2, b3, b4, b5, b6, b7, b8, ⟨e_f32ContIn, e_f32ContOut, e_f32DiscIn, e_f32DiscOut, e_fixedParam, e_tunableParam, e_f64ContIn, e_f64ContOut, e_f64DiscIn, e_f64DiscOut, e_int8In, e_int8Out, e_uint8In, e_uint8Out, e_int16In, e_int16Out, e_uint16In, e_uint16Out, e_int32In, e_int32Out, e_uint32In, e_uint32Out, e_int64In, e_int64Out, e_uint64In, e_uint64Out, e_boolIn, e_boolOut, e_strIn, e_strOut, e_binIn, e_binOut, e_enumIn, e_enumOut⟩, b9⟩ := mv'
  obtain ⟨la, lb, l, rfl⟩ := hc
  simp only [Same, key, MV.flags, MV.moreFlags, Prod.mk.injEq] at h
  obtain ⟨⟨rfl, rfl, rfl, rfl, rfl⟩, rfl, rfl, rfl, rfl, rfl, rfl, rfl, rfl, rfl, rfl, rfl, rfl, rfl, rfl, rfl, rfl, rfl, rfl⟩ := h
  simp only [getFloat32]
  mrel

theorem get_getFloat64 {mv mv' : MV F (Data F)} {ctx ctx' : Ctx F} (vr p n i) (hc : CtxRel ctx ctx')
    (h : Same key mv mv') : MRel (Same key) (getFloat64 ctx mv vr p n i) (getFloat64 ctx' mv' vr p n i) := by
  obtain ⟨a1, a2, a3, a4, a5, a6, a7, a8, ⟨d_f32ContIn, d_f32ContOut, d_f32DiscIn, d_f32DiscOut, d_fixedParam, d_tunableParam, d_f64ContIn, d_f64ContOut, d_f64DiscIn, d_f64DiscOut, d_int8In, d_int8Out, d_uint8In, d_uint8Out, d_int16In, d_int16Out, d_uint16In, d_uint16Out, d_int32In, d_int32Out, d_uint32In, d_uint32Out, d_int64In, d_int64Out, d_uint64In, d_uint64Out, d_boolIn, d_boolOut, d_strIn, d_strOut, d_binIn, d_binOut, d_enumIn, d_enumOut⟩, a9⟩ := mv
  obtain ⟨b1, b2, b3, b4, b5, b6, b7, b8, ⟨e_f32ContIn, e_f32ContOut, e_f32DiscIn, e_f32DiscOut, e_fixedParam, e_tunableParam, e_f64ContIn, e_f64ContOut, e_f64DiscIn, e_f64DiscOut, e_int8In, e_int8Out, e_uint8In, e_uint8Out, e_int16In, e_int16Out, e_uint16In, e_uint16Out, e_int32In, e_int32Out, e_uint32In, e_uint32Out, e_int64In, e_int64Out, e_uint64In, e_uint64Out, e_boolIn, e_boolOut, e_strIn, e_strOut, e_binIn, e_binOut, e_enumIn, e_enumOut⟩, b9⟩ := mv'
  obtain ⟨la, lb, l, rfl⟩ := hc
  simp only [Same, key, MV.flags, MV.moreFlags, Prod.mk.injEq] at h
  obtain ⟨⟨rfl, rfl, rfl, rfl, rfl⟩, rfl, rfl, rfl, rfl, rfl, rfl, rfl, rfl, rfl, rfl, rfl, rfl, rfl, rfl, rfl, rfl, rfl, rfl⟩ := h
  simp only [getFloat64]
  mrel

theorem get_getInt8 {mv mv' : MV F (Data F)} {ctx ctx' : Ctx F} (vr p n i) (hc : CtxRel ctx ctx')
    (h : Same key mv mv') : MRel (Same key) (getInt8 ctx mv vr p n i) (getInt8 ctx' mv' vr p n i) := by
  obtain ⟨a1, a2, a3, a4, a5, a6, a7, a8, ⟨d_f32ContIn, d_f32ContOut, d_f32DiscIn, d_f32DiscOut, d_fixedParam, d_tunableParam, d_f64ContIn, d_f64ContOut, d_f64DiscIn, d_f64DiscOut, d_int8In, d_int8Out, d_uint8In, d_uint8Out, d_int16In, d_int16Out, d_uint16In, d_uint16Out, d_int32In, d_int32Out, d_uint32In, d_uint32Out, d_int64In, d_int64Out, d_uint64In, d_uint64Out, d_boolIn, d_boolOut, d_strIn, d_strOut, d_binIn, d_binOut, d_enumIn, d_enumOut⟩, a9⟩ := mv
  obtain ⟨b1, b2, b3, b4, b5, b6, b7, b8, ⟨e_f32ContIn, e_f32ContOut, e_f32DiscIn, e_f32DiscOut, e_fixedParam, e_tunableParam, e_f64ContIn, e_f64ContOut, e_f64DiscIn, e_f64DiscOut, e_int8In, e_int8Out, e_uint8In, e_uint8Out, e_int16In, e_int16Out, e_uint16In, e_uint16Out, e_int32In, e_int32Out, e_uint32In, e_uint32Out, e_int64In, e_int64Out, e_uint64In, e_uint64Out, e_boolIn, e_boolOut, e_strIn, e_strOut, e_binIn, e_binOut, e_enumIn, e_enumOut⟩, b9⟩ := mv'
  obtain ⟨la, lb, l, rfl⟩ := hc
  simp only [Same, key, MV.flags, MV.moreFlags, Prod.mk.injEq] at h
  obtain ⟨⟨rfl, rfl, rfl, rfl, rfl⟩, rfl, rfl, rfl, rfl, rfl, rfl, rfl, rfl, rfl, rfl, rfl, rfl, rfl, rfl, rfl, rfl, rfl, rfl⟩ := h
  simp only [getInt8]
  mrel

theorem get_getUInt8 {mv mv' : MV F (Data F)} {ctx ctx' : Ctx F} (vr p n i) (hc : CtxRel ctx ctx')
    (h : Same key mv mv') : MRel (Same key) (getUInt8 ctx mv vr p n i) (getUInt8 ctx' mv' vr p n i) := by
  obtain ⟨a1, a2, a3, a4, a5, a6, a7, a8, ⟨d_f32ContIn, d_f32ContOut, d_f32DiscIn, d_f32DiscOut, d_fixedParam, d_tunableParam, d_f64ContIn, d_f64ContOut, d_f64DiscIn, d_f64DiscOut, d_int8In, d_int8Out, d_uint8In, d_uint8Out, d_int16In, d_int16Out, d_uint16In, d_uint16Out, d_int32In, d_int32Out, d_uint32In, d_uint32Out, d_int64In, d_int64Out, d_uint64In, d_uint64Out, d_boolIn, d_boolOut, d_strIn, d_strOut, d_binIn, d_binOut, d_enumIn, d_enumOut⟩, a9⟩ := mv
  obtain ⟨b1, b2, b3, b4, b5, b6, b7, b8, ⟨e_f32ContIn, e_f32ContOut, e_f32DiscIn, e_f32DiscOut, e_fixedParam, e_tunableParam, e_f64ContIn, e_f64ContOut, e_f64DiscIn, e_f64DiscOut, e_int8In, e_int8Out, e_uint8In, e_uint8Out, e_int16In, e_int16Out, e_uint16In, e_uint16Out, e_int32In, e_int32Out, e_uint32In, e_uint32Out, e_int64In, e_int64Out, e_uint64In, e_uint64Out, e_boolIn, e_boolOut, e_strIn, e_strOut, e_binIn, e_binOut, e_enumIn, e_enumOut⟩, b9⟩ := mv'
  obtain ⟨la, lb, l, rfl⟩ := hc
  simp only [Same, key, MV.flags, MV.moreFlags, Prod.mk.injEq] at h
  obtain ⟨⟨rfl, rfl, rfl, rfl, rfl⟩, rfl, rfl, rfl, rfl, rfl, rfl, rfl, rfl, rfl, rfl, rfl, rfl, rfl, rfl, rfl, rfl, rfl, rfl⟩ := h
  simp only [getUInt8]
  mrel

theorem get_getInt16 {mv mv' : MV F (Data F)} {ctx ctx' : Ctx F} (vr p n i) (hc : CtxRel ctx ctx')
    (h : Same key mv mv') : MRel (Same key) (getInt16 ctx mv vr p n i) (getInt16 ctx' mv' vr p n i) := by
  obtain ⟨a1, a2, a3, a4, a5, a6, a7, a8, ⟨d_f32ContIn, d_f32ContOut, d_f32DiscIn, d_f32DiscOut, d_fixedParam, d_tunableParam, d_f64ContIn, d_f64ContOut, d_f64DiscIn, d_f64DiscOut, d_int8In, d_int8Out, d_uint8In, d_uint8Out, d_int16In, d_int16Out, d_uint16In, d_uint16Out, d_int32In, d_int32Out, d_uint32In, d_uint32Out, d_int64In, d_int64Out, d_uint64In, d_uint64Out, d_boolIn, d_boolOut, d_strIn, d_strOut, d_binIn, d_binOut, d_enumIn, d_enumOut⟩, a9⟩ := mv
  obtain ⟨b1, b2, b3, b4, b5, b6, b7, b8, ⟨e_f32ContIn, e_f32ContOut, e_f32DiscIn, e_f32DiscOut, e_fixedParam, e_tunableParam, e_f64ContIn, e_f64ContOut, e_f64DiscIn, e_f64DiscOut, e_int8In, e_int8Out, e_uint8In, e_uint8Out, e_int16In, e_int16Out, e_uint16In, e_uint16Out, e_int32In, e_int32Out, e_uint32In, e_uint32Out, e_int64In, e_int64Out, e_uint64In, e_uint64Out, e_boolIn, e_boolOut, e_strIn, e_strOut, e_binIn, e_binOut, e_enumIn, e_enumOut⟩, b9⟩ := mv'
  obtain ⟨la, lb, l, rfl⟩ := hc
  simp only [Same, key, MV.flags, MV.moreFlags, Prod.mk.injEq] at h
  obtain ⟨⟨rfl, rfl, rfl, rfl, rfl⟩, rfl, rfl, rfl, rfl, rfl, rfl, rfl, rfl, rfl, rfl, rfl, rfl, rfl, rfl, rfl, rfl, rfl, rfl⟩ := h
  simp only [getInt16]
  mrel

theorem get_getUInt16 {mv mv' : MV F (Data F)} {ctx ctx' : Ctx F} (vr p n i) (hc : CtxRel ctx ctx')
    (h : Same key mv mv') : MRel (Same key) (getUInt16 ctx mv vr p n i) (getUInt16 ctx' mv' vr p n i) := by
  obtain ⟨a1, a2, a3, a4, a5, a6, a7, a8, ⟨d_f32ContIn, d_f32ContOut, d_f32DiscIn, d_f32DiscOut, d_fixedParam, d_tunableParam, d_f64ContIn, d_f64ContOut, d_f64DiscIn, d_f64DiscOut, d_int8In, d_int8Out, d_uint8In, d_uint8Out, d_int16In, d_int16Out, d_uint16In, d_uint16Out, d_int32In, d_int32Out, d_uint32In, d_uint32Out, d_int64In, d_int64Out, d_uint64In, d_uint64Out, d_boolIn, d_boolOut, d_strIn, d_strOut, d_binIn, d_binOut, d_enumIn, d_enumOut⟩, a9⟩ := mv
  obtain ⟨b1, b2, b3, b4, b5, b6, b7, b8, ⟨e_f32ContIn, e_f32ContOut, e_f32DiscIn, e_f32DiscOut, e_fixedParam, e_tunableParam, e_f64ContIn, e_f64ContOut, e_f64DiscIn, e_f64DiscOut, e_int8In, e_int8Out, e_uint8In, e_uint8Out, e_int16In, e_int16Out, e_uint16In, e_uint16Out, e_int32In, e_int32Out, e_uint32In, e_uint32Out, e_int64In, e_int64Out, e_uint64In, e_uint64Out, e_boolIn, e_boolOut, e_strIn, e_strOut, e_binIn, e_binOut, e_enumIn, e_enumOut⟩, b9⟩ := mv'
  obtain ⟨la, lb, l, rfl⟩ := hc
  simp only [Same, key, MV.flags, MV.moreFlags, Prod.mk.injEq] at h
  obtain ⟨⟨rfl, rfl, rfl, rfl, rfl⟩, rfl, rfl, rfl, rfl, rfl, rfl, rfl, rfl, rfl, rfl, rfl, rfl, rfl, rfl, rfl, rfl, rfl, rfl⟩ := h
  simp only [getUInt16]
  mrel

theorem get_getInt32 {mv mv' : MV F (Data F)} {ctx ctx' : Ctx F} {ver3 : Bool} (vr p n i) (hc : CtxRel ctx ctx')
    (h : Same key mv mv') : MRel (Same key) (getInt32 ver3 ctx mv vr p n i) (getInt32 ver3 ctx' mv' vr p n i) := by
  obtain ⟨a1, a2, a3, a4, a5, a6, a7, a8, ⟨d_f32ContIn, d_f32ContOut, d_f32DiscIn, d_f32DiscOut, d_fixedParam, d_tunableParam, d_f64ContIn, d_f64ContOut, d_f64DiscIn, d_f64DiscOut, d_int8In, d_int8Out, d_uint8In, d_uint8Out, d_int16In, d_int16Out, d_uint16In, d_uint16Out, d_int32In, d_int32Out, d_uint32In, d_uint32Out, d_int64In, d_int64Out, d_uint64In, d_uint64Out, d_boolIn, d_boolOut, d_strIn, d_strOut, d_binIn, d_binOut, d_enumIn, d_enumOut⟩, a9⟩ := mv
  obtain ⟨b1, b2, b3, b4, b5, b6, b7, b8, ⟨e_f32ContIn, e_f32ContOut, e_f32DiscIn, e_f32DiscOut, e_fixedParam, e_tunableParam, e_f64ContIn, e_f64ContOut, e_f64DiscIn, e_f64DiscOut, e_int8In, e_int8Out, e_uint8In, e_uint8Out, e_int16In, e_int16Out, e_uint16In, e_uint16Out, e_int32In, e_int32Out, e_uint32In, e_uint32Out, e_int64In, e_int64Out, e_uint64In, e_uint64Out, e_boolIn, e_boolOut, e_strIn, e_strOut, e_binIn, e_binOut, e_enumIn, e_enumOut⟩, b9⟩ := mv'
  obtain ⟨la, lb, l, rfl⟩ := hc
  simp only [Same, key, MV.flags, MV.moreFlags, Prod.mk.injEq] at h
  obtain ⟨⟨rfl, rfl, rfl, rfl, rfl⟩, rfl, rfl, rfl, rfl, rfl, rfl, rfl, rfl, rfl, rfl, rfl, rfl, rfl, rfl, rfl, rfl, rfl, rfl⟩ := h
  simp only [getInt32]
  mrel

theorem get_getUInt32 {mv mv' : MV F (Data F)} {ctx ctx' : Ctx F} (vr p n i) (hc : CtxRel ctx ctx')
    (h : Same key mv mv') : MRel (Same key) (getUInt32 ctx mv vr p n i) (getUInt32 ctx' mv' vr p n i) := by
  obtain ⟨a1, a2, a3, a4, a5, a6, a7, a8, ⟨d_f32ContIn, d_f32ContOut, d_f32DiscIn, d_f32DiscOut, d_fixedParam, d_tunableParam, d_f64ContIn, d_f64ContOut, d_f64DiscIn, d_f64DiscOut, d_int8In, d_int8Out, d_uint8In, d_uint8Out, d_int16In, d_int16Out, d_uint16In, d_uint16Out, d_int32In, d_int32Out, d_uint32In, d_uint32Out, d_int64In, d_int64Out, d_uint64In, d_uint64Out, d_boolIn, d_boolOut, d_strIn, d_strOut, d_binIn, d_binOut, d_enumIn, d_enumOut⟩, a9⟩ := mv
  obtain ⟨b1, b2, b3, b4, b5, b6, b7, b8, ⟨e_f32ContIn, e_f32ContOut, e_f32DiscIn, e_f32DiscOut, e_fixedParam, e_tunableParam, e_f64ContIn, e_f64ContOut, e_f64DiscIn, e_f64DiscOut, e_int8In, e_int8Out, e_uint8In, e_uint8Out, e_int16In, e_int16Out, e_uint16In, e_uint16Out, e_int32In, e_int32Out, e_uint32In, e_uint32Out, e_int64In, e_int64Out, e_uint64In, e_uint64Out, e_boolIn, e_boolOut, e_strIn, e_strOut, e_binIn, e_binOut, e_enumIn, e_enumOut⟩, b9⟩ := mv'
  obtain ⟨la, lb, l, rfl⟩ := hc
  simp only [Same, key, MV.flags, MV.moreFlags, Prod.mk.injEq] at h
  obtain ⟨⟨rfl, rfl, rfl, rfl, rfl⟩, rfl, rfl, rfl, rfl, rfl, rfl, rfl, rfl, rfl, rfl, rfl, rfl, rfl, rfl, rfl, rfl, rfl, rfl⟩ := h
  simp only [getUInt32]
  mrel

theorem get_getInt64 {mv mv' : MV F (Data F)} {ctx ctx' : Ctx F} {ver3 : Bool} (vr p n i) (hc : CtxRel ctx ctx')
    (h : Same key mv mv') : MRel (Same key) (getInt64 ver3 ctx mv vr p n i) (getInt64 ver3 ctx' mv' vr p n i) := by
  obtain ⟨a1, a2, a3, a4, a5, a6, a7, a8, ⟨d_f32ContIn, d_f32ContOut, d_f32DiscIn, d_f32DiscOut, d_fixedParam, d_tunableParam, d_f64ContIn, d_f64ContOut, d_f64DiscIn, d_f64DiscOut, d_int8In, d_int8Out, d_uint8In, d_uint8Out, d_int16In, d_int16Out, d_uint16In, d_uint16Out, d_int32In, d_int32Out, d_uint32In, d_uint32Out, d_int64In, d_int64Out, d_uint64In, d_uint64Out, d_boolIn, d_boolOut, d_strIn, d_strOut, d_binIn, d_binOut, d_enumIn, d_enumOut⟩, a9⟩ := mv
  obtain ⟨b1, b2, b3, b4, b5, b6, b7, b8, ⟨e_f32ContIn, e_f32ContOut, e_f32DiscIn, e_f32DiscOut, e_fixedParam, e_tunableParam, e_f64ContIn, e_f64ContOut, e_f64DiscIn, e_f64DiscOut, e_int8In, e_int8Out, e_uint8In, e_uint8Out, e_int16In, e_int16Out, e_uint16In, e_uint16Out, e_int32In, e_int32Out, e_uint32In, e_uint32Out, e_int64In, e_int64Out, e_uint64In, e_uint64Out, e_boolIn, e_boolOut, e_strIn, e_strOut, e_binIn, e_binOut, e_enumIn, e_enumOut⟩, b9⟩ := mv'
  obtain ⟨la, lb, l, rfl⟩ := hc
  simp only [Same, key, MV.flags, MV.moreFlags, Prod.mk.injEq] at h
  obtain ⟨⟨rfl, rfl, rfl, rfl, rfl⟩, rfl, rfl, rfl, rfl, rfl, rfl, rfl, rfl, rfl, rfl, rfl, rfl, rfl, rfl, rfl, rfl, rfl, rfl⟩ := h
  simp only [getInt64]
  mrel

theorem get_getUInt64 {mv mv' : MV F (Data F)} {ctx ctx' : Ctx F} (vr p n i) (hc : CtxRel ctx ctx')
    (h : Same key mv mv') : MRel (Same key) (getUInt64 ctx mv vr p n i) (getUInt64 ctx' mv' vr p n i) := by
  obtain ⟨a1, a2, a3, a4, a5, a6, a7, a8, ⟨d_f32ContIn, d_f32ContOut, d_f32DiscIn, d_f32DiscOut, d_fixedParam, d_tunableParam, d_f64ContIn, d_f64ContOut, d_f64DiscIn, d_f64DiscOut, d_int8In, d_int8Out, d_uint8In, d_uint8Out, d_int16In, d_int16Out, d_uint16In, d_uint16Out, d_int32In, d_int32Out, d_uint32In, d_uint32Out, d_int64In, d_int64Out, d_uint64In, d_uint64Out, d_boolIn, d_boolOut, d_strIn, d_strOut, d_binIn, d_binOut, d_enumIn, d_enumOut⟩, a9⟩ := mv
  obtain ⟨b1, b2, b3, b4, b5, b6, b7, b8, ⟨e_f32ContIn, e_f32ContOut, e_f32DiscIn, e_f32DiscOut, e_fixedParam, e_tunableParam, e_f64ContIn, e_f64ContOut, e_f64DiscIn, e_f64DiscOut, e_int8In, e_int8Out, e_uint8In, e_uint8Out, e_int16In, e_int16Out, e_uint16In, e_uint16Out, e_int32In, e_int32Out, e_uint32In, e_uint32Out, e_int64In, e_int64Out, e_uint64In, e_uint64Out, e_boolIn, e_boolOut, e_strIn, e_strOut, e_binIn, e_binOut, e_enumIn, e_enumOut⟩, b9⟩ := mv'
  obtain ⟨la, lb, l, rfl⟩ := hc
  simp only [Same, key, MV.flags, MV.moreFlags, Prod.mk.injEq] at h
  obtain ⟨⟨rfl, rfl, rfl, rfl, rfl⟩, rfl, rfl, rfl, rfl, rfl, rfl, rfl, rfl, rfl, rfl, rfl, rfl, rfl, rfl, rfl, rfl, rfl, rfl⟩ := h
  simp only [getUInt64]
  mrel

theorem get_getBoolean {mv mv' : MV F (Data F)} {ctx ctx' : Ctx F} (vr p n i) (hc : CtxRel ctx ctx')
    (h : Same key mv mv') : MRel (Same key) (getBoolean ctx mv vr p n i) (getBoolean ctx' mv' vr p n i) := by
  obtain ⟨a1, a2, a3, a4, a5, a6, a7, a8, ⟨d_f32ContIn, d_f32ContOut, d_f32DiscIn, d_f32DiscOut, d_fixedParam, d_tunableParam, d_f64ContIn, d_f64ContOut, d_f64DiscIn, d_f64DiscOut, d_int8In, d_int8Out, d_uint8In, d_uint8Out, d_int16In, d_int16Out, d_uint16In, d_uint16Out, d_int32In, d_int32Out, d_uint32In, d_uint32Out, d_int64In, d_int64Out, d_uint64In, d_uint64Out, d_boolIn, d_boolOut, d_strIn, d_strOut, d_binIn, d_binOut, d_enumIn, d_enumOut⟩, a9⟩ := mv
  obtain ⟨b1, b2, b3, b4, b5, b6, b7, b8, ⟨e_f32ContIn, e_f32ContOut, e_f32DiscIn, e_f32DiscOut, e_fixedParam, e_tunableParam, e_f64ContIn, e_f64ContOut, e_f64DiscIn, e_f64DiscOut, e_int8In, e_int8Out, e_uint8In, e_uint8Out, e_int16In, e_int16Out, e_uint16In, e_uint16Out, e_int32In, e_int32Out, e_uint32In, e_uint32Out, e_int64In, e_int64Out, e_uint64In, e_uint64Out, e_boolIn, e_boolOut, e_strIn, e_strOut, e_binIn, e_binOut, e_enumIn, e_enumOut⟩, b9⟩ := mv'
  obtain ⟨la, lb, l, rfl⟩ := hc
  simp only [Same, key, MV.flags, MV.moreFlags, Prod.mk.injEq] at h
  obtain ⟨⟨rfl, rfl, rfl, rfl, rfl⟩, rfl, rfl, rfl, rfl, rfl, rfl, rfl, rfl, rfl, rfl, rfl, rfl, rfl, rfl, rfl, rfl, rfl, rfl⟩ := h
  simp only [getBoolean]
  mrel

theorem get_getString {mv mv' : MV F (Data F)} {ctx ctx' : Ctx F} (vr p n i) (hc : CtxRel ctx ctx')
    (h : Same key mv mv') : MRel (Same key) (getString ctx mv vr p n i) (getString ctx' mv' vr p n i) := by
  obtain ⟨a1, a2, a3, a4, a5, a6, a7, a8, ⟨d_f32ContIn, d_f32ContOut, d_f32DiscIn, d_f32DiscOut, d_fixedParam, d_tunableParam, d_f64ContIn, d_f64ContOut, d_f64DiscIn, d_f64DiscOut, d_int8In, d_int8Out, d_uint8In, d_uint8Out, d_int16In, d_int16Out, d_uint16In, d_uint16Out, d_int32In, d_int32Out, d_uint32In, d_uint32Out, d_int64In, d_int64Out, d_uint64In, d_uint64Out, d_boolIn, d_boolOut, d_strIn, d_strOut, d_binIn, d_binOut, d_enumIn, d_enumOut⟩, a9⟩ := mv
  obtain ⟨b1, b2, b3, b4, b5, b6, b7, b8, ⟨e_f32ContIn, e_f32ContOut, e_f32DiscIn, e_f32DiscOut, e_fixedParam, e_tunableParam, e_f64ContIn, e_f64ContOut, e_f64DiscIn, e_f64DiscOut, e_int8In, e_int8Out, e_uint8In, e_uint8Out, e_int16In, e_int16Out, e_uint16In, e_uint16Out, e_int32In, e_int32Out, e_uint32In, e_uint32Out, e_int64In, e_int64Out, e_uint64In, e_uint64Out, e_boolIn, e_boolOut, e_strIn, e_strOut, e_binIn, e_binOut, e_enumIn, e_enumOut⟩, b9⟩ := mv'
  obtain ⟨la, lb, l, rfl⟩ := hc
  simp only [Same, key, MV.flags, MV.moreFlags, Prod.mk.injEq] at h
  obtain ⟨⟨rfl, rfl, rfl, rfl, rfl⟩, rfl, rfl, rfl, rfl, rfl, rfl, rfl, rfl, rfl, rfl, rfl, rfl, rfl, rfl, rfl, rfl, rfl, rfl⟩ := h
  simp only [getString]
  mrel

theorem get_getBinary {mv mv' : MV F (Data F)} {ctx ctx' : Ctx F} (vr p n i) (hc : CtxRel ctx ctx')
    (h : Same key mv mv') : MRel (Same key) (getBinary ctx mv vr p n i) (getBinary ctx' mv' vr p n i) := by
  obtain ⟨a1, a2, a3, a4, a5, a6, a7, a8, ⟨d_f32ContIn, d_f32ContOut, d_f32DiscIn, d_f32DiscOut, d_fixedParam, d_tunableParam, d_f64ContIn, d_f64ContOut, d_f64DiscIn, d_f64DiscOut, d_int8In, d_int8Out, d_uint8In, d_uint8Out, d_int16In, d_int16Out, d_uint16In, d_uint16Out, d_int32In, d_int32Out, d_uint32In, d_uint32Out, d_int64In, d_int64Out, d_uint64In, d_uint64Out, d_boolIn, d_boolOut, d_strIn, d_strOut, d_binIn, d_binOut, d_enumIn, d_enumOut⟩, a9⟩ := mv
  obtain ⟨b1, b2, b3, b4, b5, b6, b7, b8, ⟨e_f32ContIn, e_f32ContOut, e_f32DiscIn, e_f32DiscOut, e_fixedParam, e_tunableParam, e_f64ContIn, e_f64ContOut, e_f64DiscIn, e_f64DiscOut, e_int8In, e_int8Out, e_uint8In, e_uint8Out, e_int16In, e_int16Out, e_uint16In, e_uint16Out, e_int32In, e_int32Out, e_uint32In, e_uint32Out, e_int64In, e_int64Out, e_uint64In, e_uint64Out, e_boolIn, e_boolOut, e_strIn, e_strOut, e_binIn, e_binOut, e_enumIn, e_enumOut⟩, b9⟩ := mv'
  obtain ⟨la, lb, l, rfl⟩ := hc
  simp only [Same, key, MV.flags, MV.moreFlags, Prod.mk.injEq] at h
  obtain ⟨⟨rfl, rfl, rfl, rfl, rfl⟩, rfl, rfl, rfl, rfl, rfl, rfl, rfl, rfl, rfl, rfl, rfl, rfl, rfl, rfl, rfl, rfl, rfl, rfl⟩ := h
  simp only [getBinary]
  mrel

theorem set_setFloat32 {mv mv' : MV F (Data F)} {ctx ctx' : Ctx F} (vr p n i) (hc : CtxRel ctx ctx')
    (h : Same key mv mv') : MRel (Same key) (setFloat32 ctx mv vr p n i) (setFloat32 ctx' mv' vr p n i) := by
  obtain ⟨a1, a2, a3, a4, a5, a6, a7, a8, ⟨d_f32ContIn, d_f32ContOut, d_f32DiscIn, d_f32DiscOut, d_fixedParam, d_tunableParam, d_f64ContIn, d_f64ContOut, d_f64DiscIn, d_f64DiscOut, d_int8In, d_int8Out, d_uint8In, d_uint8Out, d_int16In, d_int16Out, d_uint16In, d_uint16Out, d_int32In, d_int32Out, d_uint32In, d_uint32Out, d_int64In, d_int64Out, d_uint64In, d_uint64Out, d_boolIn, d_boolOut, d_strIn, d_strOut, d_binIn, d_binOut, d_enumIn, d_enumOut⟩, a9⟩ := mv
  obtain ⟨b1, b2, b3, b4, b5, b6, b7, b8, ⟨e_f32ContIn, e_f32ContOut, e_f32DiscIn, e_f32DiscOut, e_fixedParam, e_tunableParam, e_f64ContIn, e_f64ContOut, e_f64DiscIn, e_f64DiscOut, e_int8In, e_int8Out, e_uint8In, e_uint8Out, e_int16In, e_int16Out, e_uint16In, e_uint16Out, e_int32In, e_int32Out, e_uint32In, e_uint32Out, e_int64In, e_int64Out, e_uint64In, e_uint64Out, e_boolIn, e_boolOut, e_strIn, e_strOut, e_binIn, e_binOut, e_enumIn, e_enumOut⟩, b9⟩ := mv'
  obtain ⟨la, lb, l, rfl⟩ := hc
  simp only [Same, key, MV.flags, MV.moreFlags, Prod.mk.injEq] at h
  obtain ⟨⟨rfl, rfl, rfl, rfl, rfl⟩, rfl, rfl, rfl, rfl, rfl, rfl, rfl, rfl, rfl, rfl, rfl, rfl, rfl, rfl, rfl, rfl, rfl, rfl⟩ := h
  simp only [setFloat32]
  mrel

theorem set_setFloat64 {mv mv' : MV F (Data F)} {ctx ctx' : Ctx F} (vr p n i) (hc : CtxRel ctx ctx')
    (h : Same key mv mv') : MRel (Same key) (setFloat64 ctx mv vr p n i) (setFloat64 ctx' mv' vr p n i) := by
  obtain ⟨a1, a2, a3, a4, a5, a6, a7, a8, ⟨d_f32ContIn, d_f32ContOut, d_f32DiscIn, d_f32DiscOut, d_fixedParam, d_tunableParam, d_f64ContIn, d_f64ContOut, d_f64DiscIn, d_f64DiscOut, d_int8In, d_int8Out, d_uint8In, d_uint8Out, d_int16In, d_int16Out, d_uint16In, d_uint16Out, d_int32In, d_int32Out, d_uint32In, d_uint32Out, d_int64In, d_int64Out, d_uint64In, d_uint64Out, d_boolIn, d_boolOut, d_strIn, d_strOut, d_binIn, d_binOut, d_enumIn, d_enumOut⟩, a9⟩ := mv
  obtain ⟨b1, b2, b3, b4, b5, b6, b7, b8, ⟨e_f32ContIn, e_f32ContOut, e_f32DiscIn, e_f32DiscOut, e_fixedParam, e_tunableParam, e_f64ContIn, e_f64ContOut, e_f64DiscIn, e_f64DiscOut, e_int8In, e_int8Out, e_uint8In, e_uint8Out, e_int16In, e_int16Out, e_uint16In, e_uint16Out, e_int32In, e_int32Out, e_uint32In, e_uint32Out, e_int64In, e_int64Out, e_uint64In, e_uint64Out, e_boolIn, e_boolOut, e_strIn, e_strOut, e_binIn, e_binOut, e_enumIn, e_enumOut⟩, b9⟩ := mv'
  obtain ⟨la, lb, l, rfl⟩ := hc
  simp only [Same, key, MV.flags, MV.moreFlags, Prod.mk.injEq] at h
  obtain ⟨⟨rfl, rfl, rfl, rfl, rfl⟩, rfl, rfl, rfl, rfl, rfl, rfl, rfl, rfl, rfl, rfl, rfl, rfl, rfl, rfl, rfl, rfl, rfl, rfl⟩ := h
  simp only [setFloat64]
  mrel

theorem set_setInt8 {mv mv' : MV F (Data F)} {ctx ctx' : Ctx F} (vr p n i) (hc : CtxRel ctx ctx')
    (h : Same key mv mv') : MRel (Same key) (setInt8 ctx mv vr p n i) (setInt8 ctx' mv' vr p n i) := by
  obtain ⟨a1, a2, a3, a4, a5, a6, a7, a8, ⟨d_f32ContIn, d_f32ContOut, d_f32DiscIn, d_f32DiscOut, d_fixedParam, d_tunableParam, d_f64ContIn, d_f64ContOut, d_f64DiscIn, d_f64DiscOut, d_int8In, d_int8Out, d_uint8In, d_uint8Out, d_int16In, d_int16Out, d_uint16In, d_uint16Out, d_int32In, d_int32Out, d_uint32In, d_uint32Out, d_int64In, d_int64Out, d_uint64In, d_uint64Out, d_boolIn, d_boolOut, d_strIn, d_strOut, d_binIn, d_binOut, d_enumIn, d_enumOut⟩, a9⟩ := mv
  obtain ⟨b1, b2, b3, b4, b5, b6, b7, b8, ⟨e_f32ContIn, e_f32ContOut, e_f32DiscIn, e_f32DiscOut, e_fixedParam, e_tunableParam, e_f64ContIn, e_f64ContOut, e_f64DiscIn, e_f64DiscOut, e_int8In, e_int8Out, e_uint8In, e_uint8Out, e_int16In, e_int16Out, e_uint16In, e_uint16Out, e_int32In, e_int32Out, e_uint32In, e_uint32Out, e_int64In, e_int64Out, e_uint64In, e_uint64Out, e_boolIn, e_boolOut, e_strIn, e_strOut, e_binIn, e_binOut, e_enumIn, e_enumOut⟩, b9⟩ := mv'
  obtain ⟨la, lb, l, rfl⟩ := hc
  simp only [Same, key, MV.flags, MV.moreFlags, Prod.mk.injEq] at h
  obtain ⟨⟨rfl, rfl, rfl, rfl, rfl⟩, rfl, rfl, rfl, rfl, rfl, rfl, rfl, rfl, rfl, rfl, rfl, rfl, rfl, rfl, rfl, rfl, rfl, rfl⟩ := h
  simp only [setInt8]
  mrel

theorem set_setUInt8 {mv mv' : MV F (Data F)} {ctx ctx' : Ctx F} (vr p n i) (hc : CtxRel ctx ctx')
    (h : Same key mv mv') : MRel (Same key) (setUInt8 ctx mv vr p n i) (setUInt8 ctx' mv' vr p n i) := by
  obtain ⟨a1, a2, a3, a4, a5, a6, a7, a8, ⟨d_f32ContIn, d_f32ContOut, d_f32DiscIn, d_f32DiscOut, d_fixedParam, d_tunableParam, d_f64ContIn, d_f64ContOut, d_f64DiscIn, d_f64DiscOut, d_int8In, d_int8Out, d_uint8In, d_uint8Out, d_int16In, d_int16Out, d_uint16In, d_uint16Out, d_int32In, d_int32Out, d_uint32In, d_uint32Out, d_int64In, d_int64Out, d_uint64In, d_uint64Out, d_boolIn, d_boolOut, d_strIn, d_strOut, d_binIn, d_binOut, d_enumIn, d_enumOut⟩, a9⟩ := mv
  obtain ⟨b1, b2, b3, b4, b5, b6, b7, b8, ⟨e_f32ContIn, e_f32ContOut, e_f32DiscIn, e_f32DiscOut, e_fixedParam, e_tunableParam, e_f64ContIn, e_f64ContOut, e_f64DiscIn, e_f64DiscOut, e_int8In, e_int8Out, e_uint8In, e_uint8Out, e_int16In, e_int16Out, e_uint16In, e_uint16Out, e_int32In, e_int32Out, e_uint32In, e_uint32Out, e_int64In, e_int64Out, e_uint64In, e_uint64Out, e_boolIn, e_boolOut, e_strIn, e_strOut, e_binIn, e_binOut, e_enumIn, e_enumOut⟩, b9⟩ := mv'
  obtain ⟨la, lb, l, rfl⟩ := hc
  simp only [Same, key, MV.flags, MV.moreFlags, Prod.mk.injEq] at h
  obtain ⟨⟨rfl, rfl, rfl, rfl, rfl⟩, rfl, rfl, rfl, rfl, rfl, rfl, rfl, rfl, rfl, rfl, rfl, rfl, rfl, rfl, rfl, rfl, rfl, rfl⟩ := h
  simp only [setUInt8]
  mrel

theorem set_setInt16 {mv mv' : MV F (Data F)} {ctx ctx' : Ctx F} (vr p n i) (hc : CtxRel ctx ctx')
    (h : Same key mv mv') : MRel (Same key) (setInt16 ctx mv vr p n i) (setInt16 ctx' mv' vr p n i) := by
  obtain ⟨a1, a2, a3, a4, a5, a6, a7, a8, ⟨d_f32ContIn, d_f32ContOut, d_f32DiscIn, d_f32DiscOut, d_fixedParam, d_tunableParam, d_f64ContIn, d_f64ContOut, d_f64DiscIn, d_f64DiscOut, d_int8In, d_int8Out, d_uint8In, d_uint8Out, d_int16In, d_int16Out, d_uint16In, d_uint16Out, d_int32In, d_int32Out, d_uint32In, d_uint32Out, d_int64In, d_int64Out, d_uint64In, d_uint64Out, d_boolIn, d_boolOut, d_strIn, d_strOut, d_binIn, d_binOut, d_enumIn, d_enumOut⟩, a9⟩ := mv
  obtain ⟨b1, b2, b3, b4, b5, b6, b7, b8, ⟨e_f32ContIn, e_f32ContOut, e_f32DiscIn, e_f32DiscOut, e_fixedParam, e_tunableParam, e_f64ContIn, e_f64ContOut, e_f64DiscIn, e_f64DiscOut, e_int8In, e_int8Out, e_uint8In, e_uint8Out, e_int16In, e_int16Out, e_uint16In, e_uint16Out, e_int32In, e_int32Out, e_uint32In, e_uint32Out, e_int64In, e_int64Out, e_uint64In, e_uint64Out, e_boolIn, e_boolOut, e_strIn, e_strOut, e_binIn, e_binOut, e_enumIn, e_enumOut⟩, b9⟩ := mv'
  obtain ⟨la, lb, l, rfl⟩ := hc
  simp only [Same, key, MV.flags, MV.moreFlags, Prod.mk.injEq] at h
  obtain ⟨⟨rfl, rfl, rfl, rfl, rfl⟩, rfl, rfl, rfl, rfl, rfl, rfl, rfl, rfl, rfl, rfl, rfl, rfl, rfl, rfl, rfl, rfl, rfl, rfl⟩ := h
  simp only [setInt16]
  mrel

theorem set_setUInt16 {mv mv' : MV F (Data F)} {ctx ctx' : Ctx F} (vr p n i) (hc : CtxRel ctx ctx')
    (h : Same key mv mv') : MRel (Same key) (setUInt16 ctx mv vr p n i) (setUInt16 ctx' mv' vr p n i) := by
  obtain ⟨a1, a2, a3, a4, a5, a6, a7, a8, ⟨d_f32ContIn, d_f32ContOut, d_f32DiscIn, d_f32DiscOut, d_fixedParam, d_tunableParam, d_f64ContIn, d_f64ContOut, d_f64DiscIn, d_f64DiscOut, d_int8In, d_int8Out, d_uint8In, d_uint8Out, d_int16In, d_int16Out, d_uint16In, d_uint16Out, d_int32In, d_int32Out, d_uint32In, d_uint32Out, d_int64In, d_int64Out, d_uint64In, d_uint64Out, d_boolIn, d_boolOut, d_strIn, d_strOut, d_binIn, d_binOut, d_enumIn, d_enumOut⟩, a9⟩ := mv
  obtain ⟨b1, b2, b3, b4, b5, b6, b7, b8, ⟨e_f32ContIn, e_f32ContOut, e_f32DiscIn, e_f32DiscOut, e_fixedParam, e_tunableParam, e_f64ContIn, e_f64ContOut, e_f64DiscIn, e_f64DiscOut, e_int8In, e_int8Out, e_uint8In, e_uint8Out, e_int16In, e_int16Out, e_uint16In, e_uint16Out, e_int32In, e_int32Out, e_uint32In, e_uint32Out, e_int64In, e_int64Out, e_uint64In, e_uint64Out, e_boolIn, e_boolOut, e_strIn, e_strOut, e_binIn, e_binOut, e_enumIn, e_enumOut⟩, b9⟩ := mv'
  obtain ⟨la, lb, l, rfl⟩ := hc
  simp only [Same, key, MV.flags, MV.moreFlags, Prod.mk.injEq] at h
  obtain ⟨⟨rfl, rfl, rfl, rfl, rfl⟩, rfl, rfl, rfl, rfl, rfl, rfl, rfl, rfl, rfl, rfl, rfl, rfl, rfl, rfl, rfl, rfl, rfl, rfl⟩ := h
  simp only [setUInt16]
  mrel

theorem set_setInt32 {mv mv' : MV F (Data F)} {ctx ctx' : Ctx F} {ver3 : Bool} (vr p n i) (hc : CtxRel ctx ctx')
    (h : Same key mv mv') : MRel (Same key) (setInt32 ver3 ctx mv vr p n i) (setInt32 ver3 ctx' mv' vr p n i) := by
  obtain ⟨a1, a2, a3, a4, a5, a6, a7, a8, ⟨d_f32ContIn, d_f32ContOut, d_f32DiscIn, d_f32DiscOut, d_fixedParam, d_tunableParam, d_f64ContIn, d_f64ContOut, d_f64DiscIn, d_f64DiscOut, d_int8In, d_int8Out, d_uint8In, d_uint8Out, d_int16In, d_int16Out, d_uint16In, d_uint16Out, d_int32In, d_int32Out, d_uint32In, d_uint32Out, d_int64In, d_int64Out, d_uint64In, d_uint64Out, d_boolIn, d_boolOut, d_strIn, d_strOut, d_binIn, d_binOut, d_enumIn, d_enumOut⟩, a9⟩ := mv
  obtain ⟨b1, b2, b3, b4, b5, b6, b7, b8, ⟨e_f32ContIn, e_f32ContOut, e_f32DiscIn, e_f32DiscOut, e_fixedParam, e_tunableParam, e_f64ContIn, e_f64ContOut, e_f64DiscIn, e_f64DiscOut, e_int8In, e_int8Out, e_uint8In, e_uint8Out, e_int16In, e_int16Out, e_uint16In, e_uint16Out, e_int32In, e_int32Out, e_uint32In, e_uint32Out, e_int64In, e_int64Out, e_uint64In, e_uint64Out, e_boolIn, e_boolOut, e_strIn, e_strOut, e_binIn, e_binOut, e_enumIn, e_enumOut⟩, b9⟩ := mv'
  obtain ⟨la, lb, l, rfl⟩ := hc
  simp only [Same, key, MV.flags, MV.moreFlags, Prod.mk.injEq] at h
  obtain ⟨⟨rfl, rfl, rfl, rfl, rfl⟩, rfl, rfl, rfl, rfl, rfl, rfl, rfl, rfl, rfl, rfl, rfl, rfl, rfl, rfl, rfl, rfl, rfl, rfl⟩ := h
  simp only [setInt32]
  mrel

theorem set_setUInt32 {mv mv' : MV F (Data F)} {ctx ctx' : Ctx F} (vr p n i) (hc : CtxRel ctx ctx')
    (h : Same key mv mv') : MRel (Same key) (setUInt32 ctx mv vr p n i) (setUInt32 ctx' mv' vr p n i) := by
  obtain ⟨a1, a2, a3, a4, a5, a6, a7, a8, ⟨d_f32ContIn, d_f32ContOut, d_f32DiscIn, d_f32DiscOut, d_fixedParam, d_tunableParam, d_f64ContIn, d_f64ContOut, d_f64DiscIn, d_f64DiscOut, d_int8In, d_int8Out, d_uint8In, d_uint8Out, d_int16In, d_int16Out, d_uint16In, d_uint16Out, d_int32In, d_int32Out, d_uint32In, d_uint32Out, d_int64In, d_int64Out, d_uint64In, d_uint64Out, d_boolIn, d_boolOut, d_strIn, d_strOut, d_binIn, d_binOut, d_enumIn, d_enumOut⟩, a9⟩ := mv
  obtain ⟨b1, b2, b3, b4, b5, b6, b7, b8, ⟨e_f32ContIn, e_f32ContOut, e_f32DiscIn, e_f32DiscOut, e_fixedParam, e_tunableParam, e_f64ContIn, e_f64ContOut, e_f64DiscIn, e_f64DiscOut, e_int8In, e_int8Out, e_uint8In, e_uint8Out, e_int16In, e_int16Out, e_uint16In, e_uint16Out, e_int32In, e_int32Out, e_uint32In, e_uint32Out, e_int64In, e_int64Out, e_uint64In, e_uint64Out, e_boolIn, e_boolOut, e_strIn, e_strOut, e_binIn, e_binOut, e_enumIn, e_enumOut⟩, b9⟩ := mv'
  obtain ⟨la, lb, l, rfl⟩ := hc
  simp only [Same, key, MV.flags, MV.moreFlags, Prod.mk.injEq] at h
  obtain ⟨⟨rfl, rfl, rfl, rfl, rfl⟩, rfl, rfl, rfl, rfl, rfl, rfl, rfl, rfl, rfl, rfl, rfl, rfl, rfl, rfl, rfl, rfl, rfl, rfl⟩ := h
  simp only [setUInt32]
  mrel

theorem set_setInt64 {mv mv' : MV F (Data F)} {ctx ctx' : Ctx F} {ver3 : Bool} (vr p n i) (hc : CtxRel ctx ctx')
    (h : Same key mv mv') : MRel (Same key) (setInt64 ver3 ctx mv vr p n i) (setInt64 ver3 ctx' mv' vr p n i) := by
  obtain ⟨a1, a2, a3, a4, a5, a6, a7, a8, ⟨d_f32ContIn, d_f32ContOut, d_f32DiscIn, d_f32DiscOut, d_fixedParam, d_tunableParam, d_f64ContIn, d_f64ContOut, d_f64DiscIn, d_f64DiscOut, d_int8In, d_int8Out, d_uint8In, d_uint8Out, d_int16In, d_int16Out, d_uint16In, d_uint16Out, d_int32In, d_int32Out, d_uint32In, d_uint32Out, d_int64In, d_int64Out, d_uint64In, d_uint64Out, d_boolIn, d_boolOut, d_strIn, d_strOut, d_binIn, d_binOut, d_enumIn, d_enumOut⟩, a9⟩ := mv
  obtain ⟨b1, b2, b3, b4, b5, b6, b7, b8, ⟨e_f32ContIn, e_f32ContOut, e_f32DiscIn, e_f32DiscOut, e_fixedParam, e_tunableParam, e_f64ContIn, e_f64ContOut, e_f64DiscIn, e_f64DiscOut, e_int8In, e_int8Out, e_uint8In, e_uint8Out, e_int16In, e_int16Out, e_uint16In, e_uint16Out, e_int32In, e_int32Out, e_uint32In, e_uint32Out, e_int64In, e_int64Out, e_uint64In, e_uint64Out, e_boolIn, e_boolOut, e_strIn, e_strOut, e_binIn, e_binOut, e_enumIn, e_enumOut⟩, b9⟩ := mv'
  obtain ⟨la, lb, l, rfl⟩ := hc
  simp only [Same, key, MV.flags, MV.moreFlags, Prod.mk.injEq] at h
  obtain ⟨⟨rfl, rfl, rfl, rfl, rfl⟩, rfl, rfl, rfl, rfl, rfl, rfl, rfl, rfl, rfl, rfl, rfl, rfl, rfl, rfl, rfl, rfl, rfl, rfl⟩ := h
  simp only [setInt64]
  mrel

theorem set_setUInt64 {mv mv' : MV F (Data F)} {ctx ctx' : Ctx F} (vr p n i) (hc : CtxRel ctx ctx')
    (h : Same key mv mv') : MRel (Same key) (setUInt64 ctx mv vr p n i) (setUInt64 ctx' mv' vr p n i) := by
  obtain ⟨a1, a2, a3, a4, a5, a6, a7, a8, ⟨d_f32ContIn, d_f32ContOut, d_f32DiscIn, d_f32DiscOut, d_fixedParam, d_tunableParam, d_f64ContIn, d_f64ContOut, d_f64DiscIn, d_f64DiscOut, d_int8In, d_int8Out, d_uint8In, d_uint8Out, d_int16In, d_int16Out, d_uint16In, d_uint16Out, d_int32In, d_int32Out, d_uint32In, d_uint32Out, d_int64In, d_int64Out, d_uint64In, d_uint64Out, d_boolIn, d_boolOut, d_strIn, d_strOut, d_binIn, d_binOut, d_enumIn, d_enumOut⟩, a9⟩ := mv
  obtain ⟨b1, b2, b3, b4, b5, b6, b7, b8, ⟨e_f32ContIn, e_f32ContOut, e_f32DiscIn, e_f32DiscOut, e_fixedParam, e_tunableParam, e_f64ContIn, e_f64ContOut, e_f64DiscIn, e_f64DiscOut, e_int8In, e_int8Out, e_uint8In, e_uint8Out, e_int16In, e_int16Out, e_uint16In, e_uint16Out, e_int32In, e_int32Out, e_uint32In, e_uint32Out, e_int64In, e_int64Out, e_uint64In, e_uint64Out, e_boolIn, e_boolOut, e_strIn, e_strOut, e_binIn, e_binOut, e_enumIn, e_enumOut⟩, b9⟩ := mv'
  obtain ⟨la, lb, l, rfl⟩ := hc
  simp only [Same, key, MV.flags, MV.moreFlags, Prod.mk.injEq] at h
  obtain ⟨⟨rfl, rfl, rfl, rfl, rfl⟩, rfl, rfl, rfl, rfl, rfl, rfl, rfl, rfl, rfl, rfl, rfl, rfl, rfl, rfl, rfl, rfl, rfl, rfl⟩ := h
  simp only [setUInt64]
  mrel

theorem set_setBoolean {mv mv' : MV F (Data F)} {ctx ctx' : Ctx F} (vr p n i) (hc : CtxRel ctx ctx')
    (h : Same key mv mv') : MRel (Same key) (setBoolean ctx mv vr p n i) (setBoolean ctx' mv' vr p n i) := by
  obtain ⟨a1, a2, a3, a4, a5, a6, a7, a8, ⟨d_f32ContIn, d_f32ContOut, d_f32DiscIn, d_f32DiscOut, d_fixedParam, d_tunableParam, d_f64ContIn, d_f64ContOut, d_f64DiscIn, d_f64DiscOut, d_int8In, d_int8Out, d_uint8In, d_uint8Out, d_int16In, d_int16Out, d_uint16In, d_uint16Out, d_int32In, d_int32Out, d_uint32In, d_uint32Out, d_int64In, d_int64Out, d_uint64In, d_uint64Out, d_boolIn, d_boolOut, d_strIn, d_strOut, d_binIn, d_binOut, d_enumIn, d_enumOut⟩, a9⟩ := mv
  obtain ⟨b1, b2, b3, b4, b5, b6, b7, b8, ⟨e_f32ContIn, e_f32ContOut, e_f32DiscIn, e_f32DiscOut, e_fixedParam, e_tunableParam, e_f64ContIn, e_f64ContOut, e_f64DiscIn, e_f64DiscOut, e_int8In, e_int8Out, e_uint8In, e_uint8Out, e_int16In, e_int16Out, e_uint16In, e_uint16Out, e_int32In, e_int32Out, e_uint32In, e_uint32Out, e_int64In, e_int64Out, e_uint64In, e_uint64Out, e_boolIn, e_boolOut, e_strIn, e_strOut, e_binIn, e_binOut, e_enumIn, e_enumOut⟩, b9⟩ := mv'
  obtain ⟨la, lb, l, rfl⟩ := hc
  simp only [Same, key, MV.flags, MV.moreFlags, Prod.mk.injEq] at h
  obtain ⟨⟨rfl, rfl, rfl, rfl, rfl⟩, rfl, rfl, rfl, rfl, rfl, rfl, rfl, rfl, rfl, rfl, rfl, rfl, rfl, rfl, rfl, rfl, rfl, rfl⟩ := h
  simp only [setBoolean]
  mrel

theorem set_setString {mv mv' : MV F (Data F)} {ctx ctx' : Ctx F} (vr p n i) (hc : CtxRel ctx ctx')
    (h : Same key mv mv') : MRel (Same key) (setString ctx mv vr p n i) (setString ctx' mv' vr p n i) := by
  obtain ⟨a1, a2, a3, a4, a5, a6, a7, a8, ⟨d_f32ContIn, d_f32ContOut, d_f32DiscIn, d_f32DiscOut, d_fixedParam, d_tunableParam, d_f64ContIn, d_f64ContOut, d_f64DiscIn, d_f64DiscOut, d_int8In, d_int8Out, d_uint8In, d_uint8Out, d_int16In, d_int16Out, d_uint16In, d_uint16Out, d_int32In, d_int32Out, d_uint32In, d_uint32Out, d_int64In, d_int64Out, d_uint64In, d_uint64Out, d_boolIn, d_boolOut, d_strIn, d_strOut, d_binIn, d_binOut, d_enumIn, d_enumOut⟩, a9⟩ := mv
  obtain ⟨b1, b2, b3, b4, b5, b6, b7, b8, ⟨e_f32ContIn, e_f32ContOut, e_f32DiscIn, e_f32DiscOut, e_fixedParam, e_tunableParam, e_f64ContIn, e_f64ContOut, e_f64DiscIn, e_f64DiscOut, e_int8In, e_int8Out, e_uint8In, e_uint8Out, e_int16In, e_int16Out, e_uint16In, e_uint16Out, e_int32In, e_int32Out, e_uint32In, e_uint32Out, e_int64In, e_int64Out, e_uint64In, e_uint64Out, e_boolIn, e_boolOut, e_strIn, e_strOut, e_binIn, e_binOut, e_enumIn, e_enumOut⟩, b9⟩ := mv'
  obtain ⟨la, lb, l, rfl⟩ := hc
  simp only [Same, key, MV.flags, MV.moreFlags, Prod.mk.injEq] at h
  obtain ⟨⟨rfl, rfl, rfl, rfl, rfl⟩, rfl, rfl, rfl, rfl, rfl, rfl, rfl, rfl, rfl, rfl, rfl, rfl, rfl, rfl, rfl, rfl, rfl, rfl⟩ := h
  simp only [setString]
  mrel

theorem set_setBinary {mv mv' : MV F (Data F)} {ctx ctx' : Ctx F} (vr p n i) (hc : CtxRel ctx ctx')
    (h : Same key mv mv') : MRel (Same key) (setBinary ctx mv vr p n i) (setBinary ctx' mv' vr p n i) := by
  obtain ⟨a1, a2, a3, a4, a5, a6, a7, a8, ⟨d_f32ContIn, d_f32ContOut, d_f32DiscIn, d_f32DiscOut, d_fixedParam, d_tunableParam, d_f64ContIn, d_f64ContOut, d_f64DiscIn, d_f64DiscOut, d_int8In, d_int8Out, d_uint8In, d_uint8Out, d_int16In, d_int16Out, d_uint16In, d_uint16Out, d_int32In, d_int32Out, d_uint32In, d_uint32Out, d_int64In, d_int64Out, d_uint64In, d_uint64Out, d_boolIn, d_boolOut, d_strIn, d_strOut, d_binIn, d_binOut, d_enumIn, d_enumOut⟩, a9⟩ := mv
  obtain ⟨b1, b2, b3, b4, b5, b6, b7, b8, ⟨e_f32ContIn, e_f32ContOut, e_f32DiscIn, e_f32DiscOut, e_fixedParam, e_tunableParam, e_f64ContIn, e_f64ContOut, e_f64DiscIn, e_f64DiscOut, e_int8In, e_int8Out, e_uint8In, e_uint8Out, e_int16In, e_int16Out, e_uint16In, e_uint16Out, e_int32In, e_int32Out, e_uint32In, e_uint32Out, e_int64In, e_int64Out, e_uint64In, e_uint64Out, e_boolIn, e_boolOut, e_strIn, e_strOut, e_binIn, e_binOut, e_enumIn, e_enumOut⟩, b9⟩ := mv'
  obtain ⟨la, lb, l, rfl⟩ := hc
  simp only [Same, key, MV.flags, MV.moreFlags, Prod.mk.injEq] at h
  obtain ⟨⟨rfl, rfl, rfl, rfl, rfl⟩, rfl, rfl, rfl, rfl, rfl, rfl, rfl, rfl, rfl, rfl, rfl, rfl, rfl, rfl, rfl, rfl, rfl, rfl⟩ := h
  simp only [setBinary]
  mrel

theorem tf : TraceFree (F := F) (Same (D := (Data F)) key) := fun _ _ _ _ h => h

theorem respects {ver3 : Bool} : Respects (F := F) (model ver3) (Same key) where
  trace := tf
  dirty := fun _ h => h
  term := fun h => by
    simp only [Same, key, MV.flags, MV.moreFlags, Prod.mk.injEq] at h; simp [h]
  netd := fun h => by
    simp only [Same, key, MV.flags, MV.moreFlags, Prod.mk.injEq] at h; simp [h]
  net := fun h => by
    simp only [Same, key, MV.flags, MV.moreFlags, Prod.mk.injEq] at h; simp [h]
  numX := fun _ => rfl
  numZ := fun _ => rfl
  info := fun _ h => by cases h
  start := by
    rintro mv mv' ctx ctx' ⟨la, lb, l, rfl⟩ h
    simp only [Same, key, Prod.mk.injEq] at h
    simp only [Same, key, Prod.mk.injEq]
    exact ⟨h.1, by simp [model, setStartValues]⟩
  refresh := by
    rintro mv mv' ctx ctx' ⟨la, lb, l, rfl⟩ h
    simp only [refreshM, model]
    split <;> split <;> exact ⟨h, rfl⟩
  get := by
    intro mv mv' ctx ctx' t vr p n i hc h
    cases t
    case float32 => exact get_getFloat32 vr p n i hc h
    case float64 => exact get_getFloat64 vr p n i hc h
    case int8 => exact get_getInt8 vr p n i hc h
    case uint8 => exact get_getUInt8 vr p n i hc h
    case int16 => exact get_getInt16 vr p n i hc h
    case uint16 => exact get_getUInt16 vr p n i hc h
    case int32 => exact get_getInt32 vr p n i hc h
    case uint32 => exact get_getUInt32 vr p n i hc h
    case int64 => exact get_getInt64 vr p n i hc h
    case uint64 => exact get_getUInt64 vr p n i hc h
    case boolean => exact get_getBoolean vr p n i hc h
    case string => exact get_getString vr p n i hc h
    case binary => exact get_getBinary vr p n i hc h
  set := by
    intro mv mv' ctx ctx' t vr p n i hc h
    cases t
    case float32 => exact set_setFloat32 vr p n i hc h
    case float64 => exact set_setFloat64 vr p n i hc h
    case int8 => exact set_setInt8 vr p n i hc h
    case uint8 => exact set_setUInt8 vr p n i hc h
    case int16 => exact set_setInt16 vr p n i hc h
    case uint16 => exact set_setUInt16 vr p n i hc h
    case int32 => exact set_setInt32 vr p n i hc h
    case uint32 => exact set_setUInt32 vr p n i hc h
    case int64 => exact set_setInt64 vr p n i hc h
    case uint64 => exact set_setUInt64 vr p n i hc h
    case boolean => exact set_setBoolean vr p n i hc h
    case string => exact set_setString vr p n i hc h
    case binary => exact set_setBinary vr p n i hc h
  event := by
    intro mv mv' ctx ctx' eu he hc h
    cases he
    simp only [Same, key, MV.flags, Prod.mk.injEq] at h
    refine ⟨?_, rfl, fun _ => ?_⟩
    · simp only [Same, key, MV.flags, Prod.mk.injEq]; simp [h]
    · simp [MV.eventInfo, h]
  getStates := fun _ _ _ h => .vecStub tf h
  nominals := fun _ _ _ h => .vecStub tf h
  setStates := fun _ _ _ h => .vecStub tf h
  deriv := fun _ _ _ h => .vecStub tf h
  indicators := fun _ _ _ h => .vecStub tf h
  getStatesV := fun _ _ _ _ h hl => .stub tf h hl
  derivV := fun _ _ _ _ h hl => .stub tf h hl
  indicatorsV := fun _ _ _ _ h hl => .stub tf h hl
  setStatesV := fun _ _ _ _ h _ => .stub tf h
  indicatorsOK := fun h => by cases h
  partialDeriv := fun _ _ _ _ h => .fail tf h
  outDeriv := fun _ _ _ h => by cases h
  activate := fun _ _ h => .ret h
  getClock := fun _ _ _ h => .ret h
  getInterval := fun _ _ _ _ h => .ret h
  partition := fun _ _ _ h => .ret h
end Feedthrough

end Verif
