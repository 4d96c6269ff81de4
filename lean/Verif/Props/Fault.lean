import Verif.Proof.FaultModule
import Verif.Props.Robust
import Verif.Props.Sample

/-! C55: the complete specification of errors.

`FModule x bs e` (Spec/Fault.lean) says that `e` describes the first defect of the bytes `bs`, after
which the reader ends with `x`; it is built from the corresponding relations for the parts of a
module.  The theorems say that the decoder fails exactly on the inputs with a defect, and with exactly
the error that describes it. -/

namespace Wadec

open LawfulRead Spec

variable {R : Type} [LawfulRead R]

/-- C55: `decode_module` returns the error `e` exactly when `e` describes the first defect of the
input. -/
theorem c55_module (r : R) (e : DecodeModuleError) :
    (∃ r', decodeModule r = (.err e, r')) ↔ FModule (fin r) (avail r) e := module_faults r e

/-- C55 for byte strings. -/
theorem c55_bytes (bs : Bytes) (e : DecodeModuleError) :
    (∃ r', decodeModule (Src.ofBytes bs) = (.err e, r')) ↔ FModule .eof bs e := by
  have := c55_module (Src.ofBytes bs) e
  rwa [avail_ofBytes, fin_ofBytes] at this

/-- C55, about the specification alone: a byte string is a module and has no defect, or it is no
module and has exactly one first defect. -/
theorem c55_one (bs : Bytes) :
    (∃ m, BModule bs m ∧ ∀ e, ¬ FModule .eof bs e) ∨
    (∃ e, FModule .eof bs e ∧ (∀ e', FModule .eof bs e' → e' = e) ∧ ∀ m, ¬ BModule bs m) := by
  rcases c29_total (Src.ofBytes bs) with ⟨m, r', h⟩ | ⟨e, r', h⟩
  · refine .inl ⟨m, (c18_bytes bs m).1 ⟨r', h⟩, fun e he => ?_⟩
    obtain ⟨r2, h2⟩ := (c55_bytes bs e).2 he
    rw [h] at h2; cases h2
  · refine .inr ⟨e, (c55_bytes bs e).1 ⟨r', h⟩, fun e' he => ?_, fun m hm => ?_⟩
    · obtain ⟨r2, h2⟩ := (c55_bytes bs e').2 he
      rw [h] at h2; cases h2; rfl
    · obtain ⟨r2, h2⟩ := (c18_bytes bs m).2 hm
      rw [h] at h2; cases h2

/-- C55: an input on which the reader fails with an error `y` has exactly one first defect. -/
theorem c55_failing (r : R) {y : IoError} (hf : fin r = .fail y) (hy : y ≠ .unexpectedEof) :
    ∃ e, FModule (.fail y) (avail r) e ∧ ∀ e', FModule (.fail y) (avail r) e' → e' = e := by
  rcases c29_total r with ⟨m, r', h⟩ | ⟨e, r', h⟩
  · exact absurd h (c32_fail hf hy m r')
  · refine ⟨e, ?_, fun e' he => ?_⟩
    · rw [← hf]; exact (c55_module r e).1 ⟨r', h⟩
    · rw [← hf] at he
      obtain ⟨r2, h2⟩ := (c55_module r e').2 he
      rw [h] at h2; cases h2; rfl

/-! ### The parts -/

/-- C55: unsigned and signed integers. -/
theorem c55_u32 (r : R) (e : DecodeU32Error) :
    (∃ r', decodeU32 r = (.err e, r')) ↔ FU32 (fin r) (avail r) e := u32_faults r e
theorem c55_u64 (r : R) (e : DecodeU64Error) :
    (∃ r', decodeU64 r = (.err e, r')) ↔ FU64 (fin r) (avail r) e := u64_faults r e
theorem c55_i32 (r : R) (e : DecodeI32Error) :
    (∃ r', decodeI32 r = (.err e, r')) ↔ FI32 (fin r) (avail r) e := i32_faults r e
theorem c55_i64 (r : R) (e : DecodeI64Error) :
    (∃ r', decodeI64 r = (.err e, r')) ↔ FI64 (fin r) (avail r) e := i64_faults r e
theorem c55_s33 (r : R) (e : DecodeS33Error) :
    (∃ r', decodeS33 r = (.err e, r')) ↔ FS33 (fin r) (avail r) e := s33_faults r e

/-- C55: names. -/
theorem c55_name (r : R) (e : DecodeNameError) :
    (∃ r', decodeName r = (.err e, r')) ↔ FName (fin r) (avail r) e := name_faults r e

/-- C55: types. -/
theorem c55_valtype (r : R) (e : DecodeValTypeError) :
    (∃ r', ValType.decode r = (.err e, r')) ↔ FValType (fin r) (avail r) e := ValType.faults r e
theorem c55_rectype (r : R) (e : DecodeRecTypeError) :
    (∃ r', RecType.decode r = (.err e, r')) ↔ FRecType (fin r) (avail r) e := RecType.faults r e
theorem c55_externtype (r : R) (e : DecodeExternTypeError) :
    (∃ r', ExternType.decode r = (.err e, r')) ↔ FExternType (fin r) (avail r) e := ExternType.faults r e

/-- C55: expressions. -/
theorem c55_expr (r : R) (e : ParseExpressionError) :
    (∃ r', decodeExpr r = (.err e, r')) ↔ FExpr (fin r) (avail r) e := expr_faults r e

/-- C55: the entries of the sections. -/
theorem c55_import (r : R) (e : DecodeImportError) :
    (∃ r', parseImport r = (.err e, r')) ↔ FImport (fin r) (avail r) e := import_faults r e
theorem c55_export (r : R) (e : DecodeExportError) :
    (∃ r', parseExport r = (.err e, r')) ↔ FExport (fin r) (avail r) e := export_faults r e
theorem c55_table (r : R) (e : DecodeTableError) :
    (∃ r', decodeTable r = (.err e, r')) ↔ FTable (fin r) (avail r) e := table_faults r e
theorem c55_global (r : R) (e : DecodeGlobalError) :
    (∃ r', parseGlobal r = (.err e, r')) ↔ FGlobal (fin r) (avail r) e := global_faults r e
theorem c55_elem (r : R) (e : DecodeElementError) :
    (∃ r', parseElem r = (.err e, r')) ↔ FElem (fin r) (avail r) e := elem_faults r e
theorem c55_data (r : R) (e : DecodeDataSegmentError) :
    (∃ r', parseData r = (.err e, r')) ↔ FData (fin r) (avail r) e := data_faults r e
theorem c55_code (r : R) (e : DecodeCodeError) :
    (∃ r', parseCode r = (.err e, r')) ↔ FCode (fin r) (avail r) e := code_faults r e

/-- C55: section headers. -/
theorem c55_header (r : R) (e : DecodeSectionHeaderError) :
    (∃ r', decodeSectionHeader r = (.err e, r')) ↔ FHeader (fin r) (avail r) e := header_faults r e

/-! ### Concrete defects, described by hand -/

/-- an integer that is cut off, one that is too long, and one that is too large -/
example : FU32 .eof [0x80, 0x80] (.Io .unexpectedEof) := .short (by simp [AllCont]) (by decide)
example : FU32 .eof [0x80, 0x80, 0x80, 0x80, 0x80, 0x00] .RepresentationTooLong :=
  .long (b := [0x80, 0x80, 0x80, 0x80, 0x80]) (t := [0x00]) (by simp [AllCont]) rfl
example : FU32 .eof [0xFF, 0xFF, 0xFF, 0xFF, 0x1F] .TooLarge := by
  refine .range (b := [0xFF, 0xFF, 0xFF, 0xFF, 0x1F]) (t := []) ?_ (by decide) (by decide)
  exact ⟨[0xFF, 0xFF, 0xFF, 0xFF], 0x1F, rfl, by simp [AllCont], by decide⟩

/-- a name that is not UTF-8: `a` and the first byte of a character -/
example : FName .eof [0x02, 0x61, 0xC3] (.Utf8 ⟨[0x61, 0xC3], 1, none⟩) := by
  refine .utf8 (b := [0x02, 0x61, 0xC3]) (v := [0x61, 0xC3]) (t := []) ?_ ?_
  · exact .mk (b := [0x02]) (bs := [0x61, 0xC3]) (xs := [0x61, 0xC3]) ((c07_u32 2 [0x02]).2 ⟨1, by decide⟩)
      (.cons (b := [0x61]) (bs := [0xC3]) rfl (.cons (b := [0xC3]) (bs := []) rfl .nil))
  · exact .incomplete (p := [0x61]) (q := [0xC3]) (c := 'é') ⟨['a'], by rfl⟩ (by simp) (by decide) (by decide)

/-- an import whose module name is there and whose item name is cut off -/
theorem shortItem : FImport .eof [0x01, 0x61, 0x02, 0x62]
    (.DecodeItemName (.DecodeByteVector (.ReadElements .unexpectedEof))) :=
  .item (b := [0x01, 0x61]) (c := [0x02, 0x62]) nameA (.bytes (.elements (b := [0x02]) (t := [0x62]) (n := 2)
    ((c07_u32 2 [0x02]).2 ⟨1, by decide⟩) (.short (by decide))))

example : ∃ r', parseImport (Src.ofBytes [0x01, 0x61, 0x02, 0x62]) =
    (.err (.DecodeItemName (.DecodeByteVector (.ReadElements .unexpectedEof))), r') := by
  refine (c55_import _ _).2 ?_
  rw [avail_ofBytes, fin_ofBytes]
  exact shortItem

/-- an export of kind 9 -/
example : FExport .eof [0x01, 0x61, 0x09, 0x00] (.InvalidDescriptorMarkerByte ⟨9⟩) :=
  .kind (b := [0x01, 0x61]) (c := [0x00]) (t := []) (i := 0) nameA ((c07_u32 0 [0x00]).2 ⟨1, by decide⟩) (by decide)

/-- 2^32-1 locals of type `i32` and another one -/
example : FLocals .eof [0x02, 0xFF, 0xFF, 0xFF, 0xFF, 0x0F, 0x7F, 0x01, 0x7F]
    (.ParseElement 1 (.LocalsCountOutOfBound 4294967295 4294967296)) := by
  refine .tooMany (b := [0x02]) (c := [0xFF, 0xFF, 0xFF, 0xFF, 0x0F, 0x7F]) (d := [0x01]) (t := [0x7F])
    (n := 2) (i := 1) (k := 1) (s := 4294967296) (l := [(4294967295, .Num .Int32)])
    ((c07_u32 2 [0x02]).2 ⟨1, by decide⟩) ?_ rfl (by decide) ?_ ((c07_u32 1 [0x01]).2 ⟨1, by decide⟩) ?_ (by decide)
  · exact .cons (b := [0xFF, 0xFF, 0xFF, 0xFF, 0x0F, 0x7F]) (bs := []) (.mk (b1 := [0xFF, 0xFF, 0xFF, 0xFF, 0x0F])
      (b2 := [0x7F]) ((c07_u32 4294967295 _).2 ⟨5, by decide⟩) .i32) .nil
  · rw [show localsOf [((4294967295 : UInt32), ValType.Num .Int32)] = List.replicate 4294967295 (.Num .Int32) by
      simp only [localsOf, List.flatMap_cons, List.flatMap_nil, List.append_nil]; rfl, List.length_replicate]
    decide
  · rw [show localsOf [((4294967295 : UInt32), ValType.Num .Int32)] = List.replicate 4294967295 (.Num .Int32) by
      simp only [localsOf, List.flatMap_cons, List.flatMap_nil, List.append_nil]; rfl, List.length_replicate]
    rfl

/-- a function entry that declares one byte more than its body has -/
example : FCode .eof [0x03, 0x00, 0x0B, 0x0B] (.EntrySizeMismatch 3 1 2) :=
  .leftover (b := [0x03]) (c := [0x00, 0x0B]) (t := [0x0B]) (v := ⟨[], []⟩) ((c07_u32 3 [0x03]).2 ⟨1, by decide⟩)
    (.mk (b1 := [0x00]) (b2 := [0x0B]) (runs := []) emptyList (.mk (bs := []) .nil) (by decide)) rfl rfl (by decide)

/-- a module with the section of imports `badImport`: its second import has an external type of
kind 7 -/
example : FModule .eof (preamble ++ [0x02, 0x0D, 0x02, 0x01, 0x61, 0x01, 0x61, 0x03, 0x7F, 0x00,
      0x01, 0x61, 0x01, 0x61, 0x07])
    (.DecodeImportSection (.DecodeList (.ParseElement 1 (.DecodeExternType (.InvalidMarkerByte 7))))) := by
  refine .contents (k := .Import) (n := 13) (s := []) (c := [0x02, 0x01, 0x61, 0x01, 0x61, 0x03, 0x7F, 0x00,
      0x01, 0x61, 0x01, 0x61, 0x07]) ?_ (by unfold MayFollow; decide) (.import ?_)
  · exact .mk (bs := []) (b1 := [0x0D]) (secs := []) (k := .Import) .nil Acceptable.nil
      ((c07_u32 13 [0x0D]).2 ⟨1, by decide⟩)
  · refine .element (b := [0x02]) (c := [0x01, 0x61, 0x01, 0x61, 0x03, 0x7F, 0x00]) (t := [0x01, 0x61, 0x01, 0x61, 0x07])
      (n := 2) (i := 1) (l := [⟨⟨[0x61]⟩, ⟨[0x61]⟩, .Global ⟨.Const, .Num .Int32⟩⟩]) ((c07_u32 2 [0x02]).2 ⟨1, by decide⟩)
      ?_ rfl (by decide) ?_
    · exact .cons (b := [0x01, 0x61, 0x01, 0x61, 0x03, 0x7F, 0x00]) (bs := []) (.mk (b1 := [0x01, 0x61])
        (b2 := [0x01, 0x61]) (b3 := [0x03, 0x7F, 0x00]) nameA nameA
        (.global (.mk (b1 := [0x7F]) (b2 := [0x00]) .i32 .const))) .nil
    · exact .type (b := [0x01, 0x61]) (c := [0x01, 0x61]) (d := [0x07]) nameA nameA (.marker (by decide))

/-- a type section after a function section -/
example : ∃ r', decodeModule (Src.ofBytes (preamble ++ (secFunction ++ secType))) =
    (.err (.SectionOutOfOrder .Type .Function), r') := by
  refine (c55_bytes _ _).2 (.order (s := [.function [⟨0⟩]]) (n := 4) (c := [0x01, 0x60, 0x00, 0x00]) ?_ (by rfl) (by unfold Before; decide))
  have h : BSeq BSection secFunction [(2, .function [⟨0⟩])] := by
    have := BSeq.cons bFunction .nil
    rwa [List.append_nil] at this
  exact .mk (bs := secFunction) (b1 := [0x04]) (k := .Type) h ⟨by decide, by simp [Section.kind], by simp [Section.kind]⟩ ((c07_u32 4 [0x04]).2 ⟨1, by decide⟩)

/-- `c55_failing`: a reader that fails after the preamble -/
example : ∃ e, FModule (.fail (.other 5)) preamble e := by
  have h := c55_failing (⟨[.data preamble, .fail (.other 5)], []⟩ : Src) (y := .other 5) rfl (by decide)
  obtain ⟨e, h, _⟩ := h
  exact ⟨e, h⟩

end Wadec
