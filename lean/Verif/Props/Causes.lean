import Verif.Spec.Texts
import Verif.Proof.Cut
import Verif.Props.Cli

/-! C60: which errors show their cause.

An error variant with another error in it either shows that error - then its own messages end with all
the messages of the inner error - or hides it: then it has a single message, the same for every inner
error.  The two theorems classify all variants of all error types of the crate. -/

namespace Wadec

open LawfulRead Spec

/-- C60: these errors show the error they contain. -/
theorem c60_shown {E : Type} [ErrText E] :
    (∀ i, Shows (DecodeListError.ParseElement (E := E) i)) ∧
    (∀ m, Shows (DecodeStorageTypeError.DecodeValTypeOrPackType m)) ∧
    Shows DecodeU32Error.Io ∧
    Shows DecodeU64Error.Io ∧
    Shows DecodeI32Error.Io ∧
    Shows DecodeI64Error.Io ∧
    Shows DecodeS33Error.Io ∧
    Shows DecodeLabelIdxError.mk ∧
    Shows (DecodeListError.DecodeLength : _ → DecodeListError E) ∧
    Shows DecodeFuncIdxError.mk ∧
    Shows DecodeTableIdxError.mk ∧
    Shows DecodeTypeIdxError.mk ∧
    Shows DecodeTagIdxError.mk ∧
    Shows CatchError.ReadMarkerByte ∧
    Shows CatchError.DecodeTagIdx ∧
    Shows CatchError.DecodeLabelIdx ∧
    Shows BlockTypeError.DecodeIndex ∧
    Shows DecodeHeapTypeError.ReadMarkerByte ∧
    Shows DecodeHeapTypeError.DecodeTypeIndex ∧
    Shows ControlError.LabelIdx ∧
    Shows ControlError.DecodeLabelIdxVector ∧
    Shows ControlError.DecodeCatchListError ∧
    Shows ControlError.HeapType ∧
    Shows DecodeDataIdxError.mk ∧
    Shows DecodeElemIdxError.mk ∧
    Shows DecodeAbsHeapTypeError.ReadMarkerByte ∧
    Shows DecodeAbsHeapTypeError.InvalidMarkerByte ∧
    Shows DecodeRefTypeError.Io ∧
    Shows DecodeRefTypeError.DecodeHeapType ∧
    Shows DecodeRefTypeError.InvalidMarkerByte ∧
    Shows DecodeValTypeError.Io ∧
    Shows DecodeValTypeError.DecodeRefType ∧
    Shows ParametricError.DecodeList ∧
    Shows DecodeLocalIdxError.mk ∧
    Shows DecodeGlobalIdxError.mk ∧
    Shows DecodeMemIdxError.mk ∧
    Shows MemargError.MemIdx ∧
    Shows DecodeFloat32Error.ReadPayload ∧
    Shows DecodeFloat64Error.ReadPayload ∧
    Shows NumericError.DecodeI32 ∧
    Shows NumericError.DecodeI64 ∧
    Shows NumericError.DecodeF32 ∧
    Shows NumericError.DecodeF64 ∧
    Shows LaneIdxError.mk ∧
    Shows VectorError.Memarg ∧
    Shows VectorError.LaneIdx ∧
    Shows ParseError.ReadOpcode ∧
    Shows ParseError.Control ∧
    Shows ParseError.Reference ∧
    Shows ParseError.Aggregate ∧
    Shows ParseError.Parametric ∧
    Shows ParseError.Variable ∧
    Shows ParseError.Table ∧
    Shows ParseError.Memory ∧
    Shows ParseError.Numeric ∧
    Shows ParseError.Vector ∧
    Shows ParseExpressionError.ParseInstruction ∧
    Shows DecodeByteVectorError.DecodeLength ∧
    Shows DecodeByteVectorError.ReadElements ∧
    Shows DecodeNameError.DecodeByteVector ∧
    Shows DecodeNameError.Utf8 ∧
    Shows DecodeStorageTypeError.ReadMarkerByte ∧
    Shows DecodeFieldTypeError.DecodeStorageType ∧
    Shows DecodeFieldTypeError.ReadMutabilityMarkerByte ∧
    Shows DecodeFieldTypeError.DecodeMutability ∧
    Shows DecodeResultTypeError.DecodeList ∧
    Shows DecodeCompTypeError.ReadMarkerByte ∧
    Shows DecodeCompTypeError.DecodeStruct ∧
    Shows DecodeCompTypeError.DecodeFieldType ∧
    Shows DecodeTableTypeError.DecodeRefType ∧
    Shows DecodeTableTypeError.DecodeLimits ∧
    Shows DecodeMemoryTypeError.mk ∧
    Shows DecodeGlobalTypeError.DecodeValueType ∧
    Shows DecodeGlobalTypeError.InvalidMutability ∧
    Shows DecodeTagTypeError.ReadMarkerByte ∧
    Shows DecodeTagTypeError.DecodeTypeIndex ∧
    Shows DecodeExternTypeError.ReadMarkerByte ∧
    Shows DecodeExternTypeError.DecodeTypeIndex ∧
    Shows DecodeExternTypeError.DecodeTableType ∧
    Shows DecodeExternTypeError.DecodeMemoryType ∧
    Shows DecodeExternTypeError.DecodeGlobalType ∧
    Shows DecodeExternTypeError.DecodeTagType ∧
    Shows DecodeSubTypeError.Io ∧
    Shows DecodeSubTypeError.DecodeSupertypes ∧
    Shows DecodeSubTypeError.DecodeCompType ∧
    Shows DecodeRecTypeError.Io ∧
    Shows DecodeRecTypeError.DecodeSubtypes ∧
    Shows DecodeRecTypeError.DecodeSubtype ∧
    Shows DecodeCodeLocalsError.DecodeLocalValType ∧
    Shows DecodeCodeError.DecodeLocalsVector ∧
    Shows DecodeCodeError.DecodeFunctionBody ∧
    Shows DecodeCodeSectionError.DecodeList ∧
    Shows DecodeCustomSectionError.DecodeName ∧
    Shows DecodeCustomSectionError.Io ∧
    Shows DecodeDataSegmentError.DecodeInitVector ∧
    Shows DecodeDataSegmentError.DecodeMemIdx ∧
    Shows DecodeDataSectionError.DecodeList ∧
    Shows DecodeDataCountSectionError.DecodeDataSegmentCount ∧
    Shows DecodeElementKindError.Io ∧
    Shows DecodeElementError.DecodeElementKind ∧
    Shows DecodeElementError.DecodeTableIdx ∧
    Shows DecodeElementError.DecodeReferenceType ∧
    Shows DecodeElementError.DecodeFuncIdxVector ∧
    Shows DecodeElementSectionError.DecodeList ∧
    Shows DecodeExportError.DecodeName ∧
    Shows DecodeExportError.DecodeIndex ∧
    Shows DecodeExportError.InvalidDescriptorMarkerByte ∧
    Shows DecodeExportSectionError.DecodeList ∧
    Shows DecodeFunctionSectionError.DecodeList ∧
    Shows DecodeGlobalError.DecodeGlobalType ∧
    Shows DecodeGlobalError.DecodeInit ∧
    Shows DecodeGlobalSectionError.DecodeList ∧
    Shows DecodeImportError.DecodeExternType ∧
    Shows DecodeImportSectionError.DecodeList ∧
    Shows DecodeMemorySectionError.DecodeList ∧
    Shows DecodeStartSectionError.mk ∧
    Shows DecodeTableError.Io ∧
    Shows DecodeTableError.DecodeTableType ∧
    Shows DecodeTableError.DecodeExpression ∧
    Shows DecodeTableSectionError.DecodeList ∧
    Shows DecodeTagSectionError.DecodeList ∧
    Shows DecodeTypeSectionError.DecodeList ∧
    Shows ParsePreambleError.Io ∧
    Shows DecodeSectionHeaderError.ReadSectionIdByte ∧
    Shows DecodeSectionHeaderError.InvalidSectionId ∧
    Shows DecodeSectionHeaderError.DecodeSectionSize ∧
    Shows DecodeModuleError.ParsePreamble ∧
    Shows DecodeModuleError.DecodeSectionHeader ∧
    Shows DecodeModuleError.DecodeCustomSection ∧
    Shows DecodeModuleError.DecodeTypeSection ∧
    Shows DecodeModuleError.DecodeImportSection ∧
    Shows DecodeModuleError.DecodeFunctionSection ∧
    Shows DecodeModuleError.DecodeTableSection ∧
    Shows DecodeModuleError.DecodeMemorySection ∧
    Shows DecodeModuleError.DecodeGlobalSection ∧
    Shows DecodeModuleError.DecodeExportSection ∧
    Shows DecodeModuleError.DecodeStartSection ∧
    Shows DecodeModuleError.DecodeElementSection ∧
    Shows DecodeModuleError.DecodeDatacountSection ∧
    Shows DecodeModuleError.DecodeCodeSection ∧
    Shows DecodeModuleError.DecodeDataSection ∧
    Shows DecodeModuleError.DecodeTagSection := by
  refine ⟨fun i io e => ⟨[_], rfl⟩, fun m io e => ⟨[_], rfl⟩, ?_⟩
  repeat' apply And.intro
  all_goals intro io e; first | exact ⟨[_], rfl⟩ | exact ⟨[], rfl⟩

/-- C60: these errors hide the error they contain. -/
theorem c60_hidden :
    Hides BlockTypeError.ReadMarkerByte ∧
    Hides ControlError.FuncIdx ∧
    Hides ControlError.TableIdx ∧
    Hides ControlError.TypeIdx ∧
    Hides ControlError.TagIdx ∧
    Hides ControlError.BlockType ∧
    Hides ControlError.ReadCastNullabilityMarker ∧
    Hides ReferenceError.HeapType ∧
    Hides ReferenceError.FuncIdx ∧
    Hides ReferenceError.ReadSubOpcode ∧
    Hides AggregateError.TypeIdx ∧
    Hides AggregateError.FieldIndex ∧
    Hides AggregateError.DataIdx ∧
    Hides AggregateError.ElemIdx ∧
    Hides AggregateError.ArrayFixedLength ∧
    Hides VariableError.LocalIdx ∧
    Hides VariableError.GlobalIdx ∧
    Hides TableError.TableIdx ∧
    Hides TableError.ElemIdx ∧
    Hides MemargError.Align ∧
    Hides MemargError.Offset ∧
    Hides MemoryError.DecodeMemarg ∧
    Hides MemoryError.DecodeDataIdx ∧
    Hides MemoryError.DecodeMemIdx ∧
    Hides NumericError.ReadOpcode ∧
    Hides VectorError.ReadOpcode ∧
    Hides VectorError.ReadImmediateBytes ∧
    Hides DecodeCompTypeError.DecodeFuncParameters ∧
    Hides DecodeCompTypeError.DecodeFuncResults ∧
    Hides ParseLimitsError.ReadFlagByte ∧
    Hides ParseLimitsError.ReadMinLimit ∧
    Hides ParseLimitsError.ReadMaxLimit ∧
    Hides DecodeGlobalTypeError.DecodeMutability ∧
    Hides DecodeCodeLocalsError.DecodeLocalsCount ∧
    Hides DecodeCodeError.DecodeFunctionSize ∧
    Hides DecodeDataSegmentError.DecodeBitfield ∧
    Hides DecodeDataSegmentError.DecodeOffsetExpr ∧
    Hides DecodeElementError.DecodeBitfield ∧
    Hides DecodeElementError.DecodeOffsetExpression ∧
    Hides DecodeElementError.DecodeElementExpression ∧
    Hides DecodeElementError.DecodeInit ∧
    Hides DecodeExportError.ReadDescriptorMarkerByte ∧
    Hides DecodeImportError.DecodeModuleName ∧
    Hides DecodeImportError.DecodeItemName := by
  repeat' apply And.intro
  all_goals exact ⟨_, fun _ _ => rfl⟩

/-- C60: these are all the places where a cause can get lost.  If the reader fails with `x`, the error
returned is a consequence of the bytes before the failure, or its messages end with what `x` shows, or
they end with one of the messages in `cutTexts`. -/
theorem c60_reader {R : Type} [LawfulRead R] {r r' : R} {x : IoError} {e : DecodeModuleError}
    (hf : fin r = .fail x) (hx : x ≠ .unexpectedEof) (h : decodeModule r = (.err e, r')) :
    Forced (avail r) e ∨
    (∃ own, ∀ io, ErrText.chain io e = own ++ io x) ∨
    (∃ own, ∃ t ∈ cutTexts, ∀ io, ErrText.chain io e = own ++ [t]) := by
  obtain ⟨e1, r1, h1, h2⟩ := c33_reported hf hx
  rw [h] at h1
  cases h1
  rcases h2 with h2 | h2 | ⟨h2, _⟩
  · exact .inl h2
  · cases hs : ErrInfo.shown e with
    | none => exact .inr (.inr (CutText.cut e x h2 hs))
    | some y =>
      have hr := LawfulText.root e y hs
      rw [h2] at hr
      cases hr
      obtain ⟨own, hc⟩ := LawfulText.chain e
      exact .inr (.inl ⟨own, fun io => by rw [hc io, hs]⟩)
  · exact .inr (.inr (MurkyText.murky e h2))

/-- C60: of every error, whether returned or not: if it contains an I/O error `x`, its messages end with
what `x` shows or with one of the messages in `cutTexts`; if it contains none, they are fixed. -/
theorem c60_root (e : DecodeModuleError) :
    (∃ x, ErrInfo.root e = some x ∧ ∃ own, ∀ io, ErrText.chain io e = own ++ io x) ∨
    (∃ x, ErrInfo.root e = some x ∧ ∃ own, ∃ t ∈ cutTexts, ∀ io, ErrText.chain io e = own ++ [t]) ∨
    (ErrInfo.root e = none ∧ ∃ own, ∀ io, ErrText.chain io e = own) := by
  obtain ⟨own, hc⟩ := LawfulText.chain e
  cases hr : ErrInfo.root e with
  | none =>
    refine .inr (.inr ⟨rfl, own, fun io => ?_⟩)
    rw [hc io]
    cases hs : ErrInfo.shown e with
    | none => simp
    | some y => rw [LawfulText.root e y hs] at hr; cases hr
  | some x =>
    cases hs : ErrInfo.shown e with
    | none => exact .inr (.inl ⟨x, rfl, CutText.cut e x hr hs⟩)
    | some y =>
      have h := LawfulText.root e y hs
      rw [hr] at h
      cases h
      exact .inl ⟨x, rfl, own, fun io => by rw [hc io, hs]⟩

/-- A program that is cut off by a broken reader, and the message with which the error ends. -/
def lostCases : List (Bytes × String) := [
  ([6, 20, 1, 127, 0, 16], "failed decoding function index"),
  ([6, 20, 1, 127, 0, 17, 0], "failed decoding table index"),
  ([6, 20, 1, 127, 0, 17], "failed decoding type index"),
  ([6, 20, 1, 127, 0, 8], "failed decoding tag index"),
  ([6, 20, 1, 127, 0, 2], "failed decoding block type"),
  ([6, 20, 1, 127, 0, 0xFB, 24], "failed decoding nullability for cast operation"),
  ([6, 20, 1, 127, 0, 0xD0], "failed decoding heap type"),
  ([6, 20, 1, 127, 0, 0xFB], "failed reading sub-opcode"),
  ([6, 20, 1, 127, 0, 0xFB, 2, 0], "failed decoding field index"),
  ([6, 20, 1, 127, 0, 0xFB, 9, 0], "failed decoding data index"),
  ([6, 20, 1, 127, 0, 0xFB, 10, 0], "failed decoding element index"),
  ([6, 20, 1, 127, 0, 0xFB, 8, 0], "failed decoding array fixed length"),
  ([6, 20, 1, 127, 0, 32], "failed decoding Local index"),
  ([6, 20, 1, 127, 0, 35], "failed decoding Global index"),
  ([6, 20, 1, 127, 0, 0xFD, 0], "failed decoding alignment"),
  ([6, 20, 1, 127, 0, 0xFD, 0, 0], "failed decoding offset"),
  ([6, 20, 1, 127, 0, 40], "failed decoding Memarg"),
  ([6, 20, 1, 127, 0, 64], "failed decoding memory index"),
  ([6, 20, 1, 127, 0, 0xFC], "failed reading 0xFC-prefixed numeric opcode"),
  ([6, 20, 1, 127, 0, 0xFD], "failed reading Vector opcode"),
  ([6, 20, 1, 127, 0, 0xFD, 12], "failed reading immediate bytes"),
  ([1, 20, 1, 0x60], "failed decoding Function type parameters"),
  ([1, 20, 1, 0x60, 0], "failed decoding Function type results"),
  ([2, 20, 1, 0, 0, 2], "failed reading flag byte"),
  ([2, 20, 1, 0, 0, 2, 1], "failed reading minimum limit"),
  ([2, 20, 1, 0, 0, 2, 1, 0], "failed reading maximum limit"),
  ([2, 20, 1, 0, 0, 3, 127], "failed decoding Mutability"),
  ([10, 20, 1, 96, 1], "failed decoding count of function locals"),
  ([10, 20, 1], "failed decoding size of function code"),
  ([9, 20, 1], "failed decoding bitfield"),
  ([9, 20, 1, 0], "failed decoding offset expression"),
  ([9, 20, 1, 2, 0], "failed decoding Element expression"),
  ([9, 20, 1, 5, 0x70], "failed decoding table.init expressions"),
  ([7, 20, 1, 0], "failed reading Export descriptor marker byte"),
  ([2, 20, 1], "failed decoding module name"),
  ([2, 20, 1, 0], "failed decoding item name")]

/-- The bytes, and then an I/O error. -/
def cutOff (bs : Bytes) : Src := ⟨[.data (preamble ++ bs), .fail (.other 5)], []⟩

def isLost (c : Bytes × String) : Bool :=
  match (decodeModule (cutOff c.1)).1 with
  | .err e => ErrInfo.root e == some (.other 5) && (ErrInfo.shown e).isNone &&
      (ErrText.chain (fun _ => []) e).getLast? == some c.2
  | _ => false

/-- C60: the list is exact: `cutTexts` are the messages with which an error that contains an I/O error
ends instead of showing it, for some input and some reader that breaks in the middle of it. -/
theorem c60_exact (t : String) : t ∈ cutTexts ↔
    ∃ (R : Type) (_ : LawfulRead R) (r r' : R) (x : IoError) (e : DecodeModuleError),
      fin r = .fail x ∧ decodeModule r = (.err e, r') ∧ ErrInfo.root e = some x ∧
      ∃ own, ∀ io, ErrText.chain io e = own ++ [t] := by
  constructor
  · intro ht
    have hm : t ∈ lostCases.map Prod.snd := by
      have : cutTexts = lostCases.map Prod.snd := by decide +kernel
      exact this ▸ ht
    obtain ⟨⟨bs, t'⟩, hc, rfl⟩ := List.mem_map.1 hm
    have hall : lostCases.all isLost = true := by decide +kernel
    have h := List.all_eq_true.1 hall _ hc
    unfold isLost at h
    refine ⟨Src, inferInstance, cutOff bs, (decodeModule (cutOff bs)).2, .other 5, ?_⟩
    generalize hd : decodeModule (cutOff bs) = d at h
    obtain ⟨res, s⟩ := d
    cases res with
    | err e =>
      simp only [Bool.and_eq_true, beq_iff_eq, Option.isNone_iff_eq_none] at h
      obtain ⟨⟨h1, h2⟩, h3⟩ := h
      refine ⟨e, rfl, rfl, h1, ?_⟩
      obtain ⟨own, hc⟩ := LawfulText.chain e
      have ho : own.getLast? = some t' := by
        have := hc (fun _ => [])
        simp only [h2, List.append_nil] at this
        rw [← this]; exact h3
      obtain ⟨ys, rfl⟩ := List.getLast?_eq_some_iff.1 ho
      exact ⟨ys, fun io => by rw [hc io, h2]; simp⟩
    | _ => cases h
  · rintro ⟨R, _, r, r', x, e, _, _, hr, own, h⟩
    rcases c60_root e with ⟨y, hy, own', h'⟩ | ⟨_, _, own', t', ht', h'⟩ | ⟨hn, _⟩
    · exfalso
      have ha := (h (fun _ => ["a"])).symm.trans (h' (fun _ => ["a"]))
      have hb := (h (fun _ => ["b"])).symm.trans (h' (fun _ => ["b"]))
      have h1 := congrArg List.getLast? ha
      have h2 := congrArg List.getLast? hb
      simp only [List.getLast?_append, List.getLast?_singleton, Option.some_or, Option.some.injEq] at h1 h2
      rw [h1] at h2
      exact absurd h2 (by decide)
    · have ha := congrArg List.getLast? ((h (fun _ => [])).symm.trans (h' (fun _ => [])))
      simp only [List.getLast?_append, List.getLast?_singleton, Option.some_or, Option.some.injEq] at ha
      exact ha ▸ ht'
    · rw [hr] at hn; cases hn

/-! ### Examples -/

/-- A reader that fails in the name of an import: its error is lost. -/
example (x : IoError) (hx : x ≠ .interrupted) (hx' : x ≠ .unexpectedEof) :
    ∃ e r', decodeModule (inImportName x) = (.err e, r') ∧
      ∃ own, ∃ t ∈ cutTexts, ∀ io, ErrText.chain io e = own ++ [t] := by
  obtain ⟨e, r', h1, h2, h3⟩ := c48_cut x hx
  exact ⟨e, r', h1, ["failed decoding Import section", "failed parsing vector element at position 0"],
    "failed decoding module name", by simp [cutTexts], h3⟩

/-- Variants that show their cause compose: the cause of the cause is shown too. -/
example (io : IoError → List String) (e : DecodeExternTypeError) :
    ErrText.chain io e <:+ ErrText.chain io (DecodeModuleError.DecodeImportSection
      (.DecodeList (.ParseElement 3 (.DecodeExternType e)))) :=
  ⟨["failed decoding Import section", "failed parsing vector element at position 3"], rfl⟩

end Wadec
