import Verif.Model.Errors
import Verif.Spec.Mark

/-! Generated by tools/gen_marks.py: the complaint (Spec/Mark.lean) that an error value contains, if it
contains one, following all payloads.  (`InvalidPackTypeMarkerError` is never returned: it is the
error of a lookup whose failure selects the alternative, src/decode/types/comptype.rs:109-118.) -/

namespace Wadec

open Spec

class MarkOf (ε : Type) where
  mark : ε → Option Mark

instance : MarkOf IoError := ⟨fun _ => none⟩
instance : MarkOf FromUtf8Error := ⟨fun _ => none⟩

instance : MarkOf DecodeU32Error where
  mark
    | .TooLarge => none
    | .RepresentationTooLong => none
    | .Io e => MarkOf.mark e

instance : MarkOf DecodeU64Error where
  mark
    | .TooLarge => none
    | .RepresentationTooLong => none
    | .Io e => MarkOf.mark e

instance : MarkOf DecodeI32Error where
  mark
    | .TooLarge => none
    | .RepresentationTooLong => none
    | .Io e => MarkOf.mark e

instance : MarkOf DecodeI64Error where
  mark
    | .RepresentationTooLong => none
    | .IncorrectSignExtension => none
    | .Io e => MarkOf.mark e

instance : MarkOf DecodeS33Error where
  mark
    | .RepresentationTooLong => none
    | .IncorrectSignExtension => none
    | .Io e => MarkOf.mark e

instance : MarkOf DecodeLabelIdxError where
  mark
    | .mk e => MarkOf.mark e

instance {E : Type} [MarkOf E] : MarkOf (DecodeListError E) where
  mark
    | .DecodeLength e => MarkOf.mark e
    | .ParseElement _ source => MarkOf.mark source

instance : MarkOf DecodeFuncIdxError where
  mark
    | .mk e => MarkOf.mark e

instance : MarkOf DecodeTableIdxError where
  mark
    | .mk e => MarkOf.mark e

instance : MarkOf DecodeTypeIdxError where
  mark
    | .mk e => MarkOf.mark e

instance : MarkOf DecodeTagIdxError where
  mark
    | .mk e => MarkOf.mark e

instance : MarkOf CatchError where
  mark
    | .ReadMarkerByte e => MarkOf.mark e
    | .InvalidMarkerByte x => some (.catch x)
    | .DecodeTagIdx e => MarkOf.mark e
    | .DecodeLabelIdx e => MarkOf.mark e

instance : MarkOf BlockTypeError where
  mark
    | .ReadMarkerByte e => MarkOf.mark e
    | .DecodeIndex e => MarkOf.mark e
    | .NegativeTypeIndex x => if x = -29 ∨ x = -28 then some (.blockRef x) else some (.blockType x)

instance : MarkOf DecodeHeapTypeError where
  mark
    | .ReadMarkerByte e => MarkOf.mark e
    | .DecodeTypeIndex e => MarkOf.mark e
    | .NegativeTypeIndex x => some (.heapType x)

instance : MarkOf ControlError where
  mark
    | .LabelIdx e => MarkOf.mark e
    | .DecodeLabelIdxVector e => MarkOf.mark e
    | .FuncIdx e => MarkOf.mark e
    | .TableIdx e => MarkOf.mark e
    | .TypeIdx e => MarkOf.mark e
    | .TagIdx e => MarkOf.mark e
    | .DecodeCatchListError e => MarkOf.mark e
    | .BlockType e => MarkOf.mark e
    | .UnexpectedElse => none
    | .ReadCastNullabilityMarker e => MarkOf.mark e
    | .InvalidCastNullabilityMarker x => some (.cast x)
    | .HeapType e => MarkOf.mark e

instance : MarkOf ReferenceError where
  mark
    | .HeapType e => MarkOf.mark e
    | .FuncIdx e => MarkOf.mark e
    | .ReadSubOpcode e => MarkOf.mark e

instance : MarkOf DecodeDataIdxError where
  mark
    | .mk e => MarkOf.mark e

instance : MarkOf DecodeElemIdxError where
  mark
    | .mk e => MarkOf.mark e

instance : MarkOf AggregateError where
  mark
    | .TypeIdx e => MarkOf.mark e
    | .FieldIndex e => MarkOf.mark e
    | .DataIdx e => MarkOf.mark e
    | .ElemIdx e => MarkOf.mark e
    | .ArrayFixedLength e => MarkOf.mark e

instance : MarkOf InvalidAbsHeapTypeMarkerError where
  mark
    | .mk x => some (.absHeapType x)

instance : MarkOf DecodeAbsHeapTypeError where
  mark
    | .ReadMarkerByte e => MarkOf.mark e
    | .InvalidMarkerByte e => MarkOf.mark e

instance : MarkOf DecodeRefTypeError where
  mark
    | .Io e => MarkOf.mark e
    | .DecodeHeapType e => MarkOf.mark e
    | .InvalidMarkerByte e => match MarkOf.mark e with | some (.absHeapType b) => some (.refType b) | m => m

instance : MarkOf DecodeValTypeError where
  mark
    | .Io e => MarkOf.mark e
    | .DecodeRefType e => (MarkOf.mark e).map Mark.asValType

instance : MarkOf ParametricError where
  mark
    | .DecodeList e => MarkOf.mark e

instance : MarkOf DecodeLocalIdxError where
  mark
    | .mk e => MarkOf.mark e

instance : MarkOf DecodeGlobalIdxError where
  mark
    | .mk e => MarkOf.mark e

instance : MarkOf VariableError where
  mark
    | .LocalIdx e => MarkOf.mark e
    | .GlobalIdx e => MarkOf.mark e

instance : MarkOf TableError where
  mark
    | .TableIdx e => MarkOf.mark e
    | .ElemIdx e => MarkOf.mark e

instance : MarkOf DecodeMemIdxError where
  mark
    | .mk e => MarkOf.mark e

instance : MarkOf MemargError where
  mark
    | .InvalidFlagsBit x => some (.memarg x)
    | .Align e => MarkOf.mark e
    | .Offset e => MarkOf.mark e
    | .MemIdx e => MarkOf.mark e

instance : MarkOf MemoryError where
  mark
    | .DecodeMemarg e => MarkOf.mark e
    | .DecodeDataIdx e => MarkOf.mark e
    | .DecodeMemIdx e => MarkOf.mark e

instance : MarkOf DecodeFloat32Error where
  mark
    | .ReadPayload e => MarkOf.mark e

instance : MarkOf DecodeFloat64Error where
  mark
    | .ReadPayload e => MarkOf.mark e

instance : MarkOf NumericError where
  mark
    | .ReadOpcode e => MarkOf.mark e
    | .DecodeI32 e => MarkOf.mark e
    | .DecodeI64 e => MarkOf.mark e
    | .DecodeF32 e => MarkOf.mark e
    | .DecodeF64 e => MarkOf.mark e

instance : MarkOf LaneIdxError where
  mark
    | .mk e => MarkOf.mark e

instance : MarkOf VectorError where
  mark
    | .ReadOpcode e => MarkOf.mark e
    | .Memarg e => MarkOf.mark e
    | .LaneIdx e => MarkOf.mark e
    | .ReadImmediateBytes e => MarkOf.mark e
    | .InvalidOpcode x => some (.opcode (.fd x.toNat))

instance : MarkOf ParseError where
  mark
    | .ReadOpcode e => MarkOf.mark e
    | .Control e => MarkOf.mark e
    | .Reference e => MarkOf.mark e
    | .Aggregate e => MarkOf.mark e
    | .Parametric e => MarkOf.mark e
    | .Variable e => MarkOf.mark e
    | .Table e => MarkOf.mark e
    | .Memory e => MarkOf.mark e
    | .Numeric e => MarkOf.mark e
    | .Vector e => MarkOf.mark e
    | .InvalidOpcode x => some (.opcode (.byte x))
    | .InvalidMarkerByteAfterFC x => some (.opcode (.fc x.toNat))
    | .InvalidMarkerByteAfterFB x => some (.opcode (.fb x.toNat))

instance : MarkOf ParseExpressionError where
  mark
    | .ParseInstruction e => MarkOf.mark e
    | .UnexpectedElse => none

instance : MarkOf DecodeByteVectorError where
  mark
    | .DecodeLength e => MarkOf.mark e
    | .ReadElements e => MarkOf.mark e

instance : MarkOf DecodeNameError where
  mark
    | .DecodeByteVector e => MarkOf.mark e
    | .Utf8 e => MarkOf.mark e

instance : MarkOf DecodeStorageTypeError where
  mark
    | .ReadMarkerByte e => MarkOf.mark e
    | .DecodeValTypeOrPackType _ source => (MarkOf.mark source).map Mark.asStorageType

instance : MarkOf InvalidMutabilityByteError where
  mark
    | .mk x => some (.mut x)

instance : MarkOf DecodeFieldTypeError where
  mark
    | .DecodeStorageType e => MarkOf.mark e
    | .ReadMutabilityMarkerByte e => MarkOf.mark e
    | .DecodeMutability e => MarkOf.mark e

instance : MarkOf DecodeResultTypeError where
  mark
    | .DecodeList e => MarkOf.mark e

instance : MarkOf DecodeCompTypeError where
  mark
    | .ReadMarkerByte e => MarkOf.mark e
    | .InvalidMarkerByte x => some (.compType x)
    | .DecodeStruct e => MarkOf.mark e
    | .DecodeFuncParameters e => MarkOf.mark e
    | .DecodeFuncResults e => MarkOf.mark e
    | .DecodeFieldType e => MarkOf.mark e

instance : MarkOf InvalidPackTypeMarkerError where
  mark
    | .mk _ => none

instance : MarkOf ParseLimitsError where
  mark
    | .ReadFlagByte e => MarkOf.mark e
    | .UnexpectedFlagByte x => some (.limits x)
    | .ReadMinLimit e => MarkOf.mark e
    | .ReadMaxLimit e => MarkOf.mark e

instance : MarkOf DecodeTableTypeError where
  mark
    | .DecodeRefType e => MarkOf.mark e
    | .DecodeLimits e => MarkOf.mark e

instance : MarkOf DecodeMemoryTypeError where
  mark
    | .mk e => MarkOf.mark e

instance : MarkOf DecodeGlobalTypeError where
  mark
    | .DecodeValueType e => MarkOf.mark e
    | .DecodeMutability e => MarkOf.mark e
    | .InvalidMutability e => MarkOf.mark e

instance : MarkOf DecodeTagTypeError where
  mark
    | .ReadMarkerByte e => MarkOf.mark e
    | .InvalidMarkerByte x => some (.tagType x)
    | .DecodeTypeIndex e => MarkOf.mark e

instance : MarkOf DecodeExternTypeError where
  mark
    | .ReadMarkerByte e => MarkOf.mark e
    | .InvalidMarkerByte x => some (.externType x)
    | .DecodeTypeIndex e => MarkOf.mark e
    | .DecodeTableType e => MarkOf.mark e
    | .DecodeMemoryType e => MarkOf.mark e
    | .DecodeGlobalType e => MarkOf.mark e
    | .DecodeTagType e => MarkOf.mark e

instance : MarkOf DecodeSubTypeError where
  mark
    | .Io e => MarkOf.mark e
    | .DecodeSupertypes e => MarkOf.mark e
    | .DecodeCompType e => MarkOf.mark e

instance : MarkOf DecodeRecTypeError where
  mark
    | .Io e => MarkOf.mark e
    | .DecodeSubtypes e => MarkOf.mark e
    | .DecodeSubtype e => MarkOf.mark e

instance : MarkOf DecodeCodeLocalsError where
  mark
    | .DecodeLocalsCount e => MarkOf.mark e
    | .LocalsCountOutOfBound _ _ => none
    | .DecodeLocalValType e => MarkOf.mark e

instance : MarkOf DecodeCodeError where
  mark
    | .DecodeFunctionSize e => MarkOf.mark e
    | .DecodeLocalsVector e => MarkOf.mark e
    | .DecodeFunctionBody e => MarkOf.mark e
    | .EntrySizeMismatch _ _ _ => none

instance : MarkOf DecodeCodeSectionError where
  mark
    | .DecodeList e => MarkOf.mark e

instance : MarkOf DecodeCustomSectionError where
  mark
    | .DecodeName e => MarkOf.mark e
    | .Io e => MarkOf.mark e

instance : MarkOf DecodeDataSegmentError where
  mark
    | .DecodeBitfield e => MarkOf.mark e
    | .InvalidBitfield x => some (.data x)
    | .DecodeOffsetExpr e => MarkOf.mark e
    | .DecodeInitVector e => MarkOf.mark e
    | .DecodeMemIdx e => MarkOf.mark e

instance : MarkOf DecodeDataSectionError where
  mark
    | .DecodeList e => MarkOf.mark e

instance : MarkOf DecodeDataCountSectionError where
  mark
    | .DecodeDataSegmentCount e => MarkOf.mark e

instance : MarkOf DecodeElementKindError where
  mark
    | .Io e => MarkOf.mark e
    | .InvalidElemKind x => some (.elemKind x)

instance : MarkOf DecodeElementError where
  mark
    | .DecodeBitfield e => MarkOf.mark e
    | .InvalidBitfield x => some (.elem x)
    | .DecodeOffsetExpression e => MarkOf.mark e
    | .DecodeElementKind e => MarkOf.mark e
    | .DecodeElementExpression e => MarkOf.mark e
    | .DecodeTableIdx e => MarkOf.mark e
    | .DecodeReferenceType e => MarkOf.mark e
    | .DecodeInit e => MarkOf.mark e
    | .DecodeFuncIdxVector e => MarkOf.mark e

instance : MarkOf DecodeElementSectionError where
  mark
    | .DecodeList e => MarkOf.mark e

instance : MarkOf InvalidExportDescMarkerByte where
  mark
    | .mk x => some (.externIdx x)

instance : MarkOf DecodeExportError where
  mark
    | .DecodeName e => MarkOf.mark e
    | .ReadDescriptorMarkerByte e => MarkOf.mark e
    | .DecodeIndex e => MarkOf.mark e
    | .InvalidDescriptorMarkerByte e => MarkOf.mark e

instance : MarkOf DecodeExportSectionError where
  mark
    | .DecodeList e => MarkOf.mark e

instance : MarkOf DecodeFunctionSectionError where
  mark
    | .DecodeList e => MarkOf.mark e

instance : MarkOf DecodeGlobalError where
  mark
    | .DecodeGlobalType e => MarkOf.mark e
    | .DecodeInit e => MarkOf.mark e

instance : MarkOf DecodeGlobalSectionError where
  mark
    | .DecodeList e => MarkOf.mark e

instance : MarkOf DecodeImportError where
  mark
    | .DecodeModuleName e => MarkOf.mark e
    | .DecodeItemName e => MarkOf.mark e
    | .DecodeExternType e => MarkOf.mark e

instance : MarkOf DecodeImportSectionError where
  mark
    | .DecodeList e => MarkOf.mark e

instance : MarkOf DecodeMemorySectionError where
  mark
    | .DecodeList e => MarkOf.mark e

instance : MarkOf DecodeStartSectionError where
  mark
    | .mk e => MarkOf.mark e

instance : MarkOf DecodeTableError where
  mark
    | .Io e => MarkOf.mark e
    | .UnexpectedMarkerByte x => some (.table x)
    | .DecodeTableType e => MarkOf.mark e
    | .DecodeExpression e => MarkOf.mark e

instance : MarkOf DecodeTableSectionError where
  mark
    | .DecodeList e => MarkOf.mark e

instance : MarkOf DecodeTagSectionError where
  mark
    | .DecodeList e => MarkOf.mark e

instance : MarkOf DecodeTypeSectionError where
  mark
    | .DecodeList e => MarkOf.mark e

instance : MarkOf InvalidSectionIdError where
  mark
    | .mk x => some (.sectionId x)

instance : MarkOf ParsePreambleError where
  mark
    | .Io e => MarkOf.mark e
    | .Unexpected x => some (.preamble x)

instance : MarkOf DecodeSectionHeaderError where
  mark
    | .ReadSectionIdByte e => MarkOf.mark e
    | .InvalidSectionId e => MarkOf.mark e
    | .DecodeSectionSize e => MarkOf.mark e

instance : MarkOf DecodeModuleError where
  mark
    | .ParsePreamble e => MarkOf.mark e
    | .CodeFuncEntriesLenMismatch _ _ => none
    | .DataCountMismatch _ _ => none
    | .SectionOutOfOrder _ _ => none
    | .DuplicateSection _ => none
    | .SectionSizeMismatch _ _ _ => none
    | .DataCountDatasLenMismatch _ _ => none
    | .DecodeDataCount => none
    | .DataIndexWithoutDataCount => none
    | .DecodeSectionHeader e => MarkOf.mark e
    | .DecodeCustomSection e => MarkOf.mark e
    | .DecodeTypeSection e => MarkOf.mark e
    | .DecodeImportSection e => MarkOf.mark e
    | .DecodeFunctionSection e => MarkOf.mark e
    | .DecodeTableSection e => MarkOf.mark e
    | .DecodeMemorySection e => MarkOf.mark e
    | .DecodeGlobalSection e => MarkOf.mark e
    | .DecodeExportSection e => MarkOf.mark e
    | .DecodeStartSection e => MarkOf.mark e
    | .DecodeElementSection e => MarkOf.mark e
    | .DecodeDatacountSection e => MarkOf.mark e
    | .DecodeCodeSection e => MarkOf.mark e
    | .DecodeDataSection e => MarkOf.mark e
    | .DecodeTagSection e => MarkOf.mark e

end Wadec
