import Verif.Model.DebugCore

/-! Generated by tools/gen_debug.py from /repo/src/decode: what the `Debug` impls of the error types, derived but
for `DecodeListError`, tell the formatter. -/

namespace Wadec

/-- src/decode/integer.rs:8-18 -/
instance : Debug DecodeU32Error where
  dbg t
    | .TooLarge => .word "TooLarge"
    | .RepresentationTooLong => .word "RepresentationTooLong"
    | .Io x => .tuple "Io" [dbg t x]

/-- src/decode/integer.rs:52-62 -/
instance : Debug DecodeU64Error where
  dbg t
    | .TooLarge => .word "TooLarge"
    | .RepresentationTooLong => .word "RepresentationTooLong"
    | .Io x => .tuple "Io" [dbg t x]

/-- src/decode/integer.rs:96-106 -/
instance : Debug DecodeI32Error where
  dbg t
    | .TooLarge => .word "TooLarge"
    | .RepresentationTooLong => .word "RepresentationTooLong"
    | .Io x => .tuple "Io" [dbg t x]

/-- src/decode/integer.rs:139-149 -/
instance : Debug DecodeI64Error where
  dbg t
    | .RepresentationTooLong => .word "RepresentationTooLong"
    | .IncorrectSignExtension => .word "IncorrectSignExtension"
    | .Io x => .tuple "Io" [dbg t x]

/-- src/decode/integer.rs:190-200 -/
instance : Debug DecodeS33Error where
  dbg t
    | .RepresentationTooLong => .word "RepresentationTooLong"
    | .IncorrectSignExtension => .word "IncorrectSignExtension"
    | .Io x => .tuple "Io" [dbg t x]

/-- src/decode/indices.rs:13-16 -/
instance : Debug DecodeLabelIdxError where
  dbg t
    | .mk x => .tuple "DecodeLabelIdxError" [dbg t x]

/-- the name of the type, src/decode/indices.rs:13-16 -/
instance : TypeName DecodeLabelIdxError := ⟨"DecodeLabelIdxError"⟩

/-- src/decode/helpers.rs:125-145 -/
instance {E : Type} [Debug E] [TypeName E] : Debug (DecodeListError E) where
  dbg t
    | .DecodeLength e => .tuple "DecodeLength" [dbg t e]
    | .ParseElement position source => .struct "ParseElement" [("position", dbg t position),
        ("source", .path (typeName E) (dbg t source))]

/-- src/decode/indices.rs:13-16 -/
instance : Debug DecodeFuncIdxError where
  dbg t
    | .mk x => .tuple "DecodeFuncIdxError" [dbg t x]

/-- the name of the type, src/decode/indices.rs:13-16 -/
instance : TypeName DecodeFuncIdxError := ⟨"DecodeFuncIdxError"⟩

/-- src/decode/indices.rs:13-16 -/
instance : Debug DecodeTableIdxError where
  dbg t
    | .mk x => .tuple "DecodeTableIdxError" [dbg t x]

/-- src/decode/indices.rs:13-16 -/
instance : Debug DecodeTypeIdxError where
  dbg t
    | .mk x => .tuple "DecodeTypeIdxError" [dbg t x]

/-- the name of the type, src/decode/indices.rs:13-16 -/
instance : TypeName DecodeTypeIdxError := ⟨"DecodeTypeIdxError"⟩

/-- src/decode/indices.rs:13-16 -/
instance : Debug DecodeTagIdxError where
  dbg t
    | .mk x => .tuple "DecodeTagIdxError" [dbg t x]

/-- src/decode/instructions.rs:1113-1126 -/
instance : Debug CatchError where
  dbg t
    | .ReadMarkerByte x => .tuple "ReadMarkerByte" [dbg t x]
    | .InvalidMarkerByte x => .tuple "InvalidMarkerByte" [dbg t x]
    | .DecodeTagIdx x => .tuple "DecodeTagIdx" [dbg t x]
    | .DecodeLabelIdx x => .tuple "DecodeLabelIdx" [dbg t x]

/-- the name of the type, src/decode/instructions.rs:1113-1126 -/
instance : TypeName CatchError := ⟨"CatchError"⟩

/-- src/decode/instructions.rs:1072-1082 -/
instance : Debug BlockTypeError where
  dbg t
    | .ReadMarkerByte x => .tuple "ReadMarkerByte" [dbg t x]
    | .DecodeIndex x => .tuple "DecodeIndex" [dbg t x]
    | .NegativeTypeIndex x => .tuple "NegativeTypeIndex" [dbg t x]

/-- src/decode/types/heaptype.rs:10-20 -/
instance : Debug DecodeHeapTypeError where
  dbg t
    | .ReadMarkerByte x => .tuple "ReadMarkerByte" [dbg t x]
    | .DecodeTypeIndex x => .tuple "DecodeTypeIndex" [dbg t x]
    | .NegativeTypeIndex x => .tuple "NegativeTypeIndex" [dbg t x]

/-- src/decode/instructions.rs:61-98 -/
instance : Debug ControlError where
  dbg t
    | .LabelIdx x => .tuple "LabelIdx" [dbg t x]
    | .DecodeLabelIdxVector x => .tuple "DecodeLabelIdxVector" [dbg t x]
    | .FuncIdx x => .tuple "FuncIdx" [dbg t x]
    | .TableIdx x => .tuple "TableIdx" [dbg t x]
    | .TypeIdx x => .tuple "TypeIdx" [dbg t x]
    | .TagIdx x => .tuple "TagIdx" [dbg t x]
    | .DecodeCatchListError x => .tuple "DecodeCatchListError" [dbg t x]
    | .BlockType x => .tuple "BlockType" [dbg t x]
    | .UnexpectedElse => .word "UnexpectedElse"
    | .ReadCastNullabilityMarker x => .tuple "ReadCastNullabilityMarker" [dbg t x]
    | .InvalidCastNullabilityMarker x => .tuple "InvalidCastNullabilityMarker" [dbg t x]
    | .HeapType x => .tuple "HeapType" [dbg t x]

/-- src/decode/instructions.rs:100-110 -/
instance : Debug ReferenceError where
  dbg t
    | .HeapType x => .tuple "HeapType" [dbg t x]
    | .FuncIdx x => .tuple "FuncIdx" [dbg t x]
    | .ReadSubOpcode x => .tuple "ReadSubOpcode" [dbg t x]

/-- src/decode/indices.rs:13-16 -/
instance : Debug DecodeDataIdxError where
  dbg t
    | .mk x => .tuple "DecodeDataIdxError" [dbg t x]

/-- src/decode/indices.rs:13-16 -/
instance : Debug DecodeElemIdxError where
  dbg t
    | .mk x => .tuple "DecodeElemIdxError" [dbg t x]

/-- src/decode/instructions.rs:112-128 -/
instance : Debug AggregateError where
  dbg t
    | .TypeIdx x => .tuple "TypeIdx" [dbg t x]
    | .FieldIndex x => .tuple "FieldIndex" [dbg t x]
    | .DataIdx x => .tuple "DataIdx" [dbg t x]
    | .ElemIdx x => .tuple "ElemIdx" [dbg t x]
    | .ArrayFixedLength x => .tuple "ArrayFixedLength" [dbg t x]

/-- src/decode/types/heaptype.rs:61-66 -/
instance : Debug InvalidAbsHeapTypeMarkerError where
  dbg t
    | .mk x => .tuple "InvalidAbsHeapTypeMarkerError" [dbg t x]

/-- src/decode/types/heaptype.rs:82-89 -/
instance : Debug DecodeAbsHeapTypeError where
  dbg t
    | .ReadMarkerByte x => .tuple "ReadMarkerByte" [dbg t x]
    | .InvalidMarkerByte x => .tuple "InvalidMarkerByte" [dbg t x]

/-- src/decode/types/reftype.rs:9-19 -/
instance : Debug DecodeRefTypeError where
  dbg t
    | .Io x => .tuple "Io" [dbg t x]
    | .DecodeHeapType x => .tuple "DecodeHeapType" [dbg t x]
    | .InvalidMarkerByte x => .tuple "InvalidMarkerByte" [dbg t x]

/-- src/decode/types/valtype.rs:10-17 -/
instance : Debug DecodeValTypeError where
  dbg t
    | .Io x => .tuple "Io" [dbg t x]
    | .DecodeRefType x => .tuple "DecodeRefType" [dbg t x]

/-- the name of the type, src/decode/types/valtype.rs:10-17 -/
instance : TypeName DecodeValTypeError := ⟨"DecodeValTypeError"⟩

/-- src/decode/instructions.rs:130-134 -/
instance : Debug ParametricError where
  dbg t
    | .DecodeList x => .tuple "DecodeList" [dbg t x]

/-- src/decode/indices.rs:13-16 -/
instance : Debug DecodeLocalIdxError where
  dbg t
    | .mk x => .tuple "DecodeLocalIdxError" [dbg t x]

/-- src/decode/indices.rs:13-16 -/
instance : Debug DecodeGlobalIdxError where
  dbg t
    | .mk x => .tuple "DecodeGlobalIdxError" [dbg t x]

/-- src/decode/instructions.rs:136-143 -/
instance : Debug VariableError where
  dbg t
    | .LocalIdx x => .tuple "LocalIdx" [dbg t x]
    | .GlobalIdx x => .tuple "GlobalIdx" [dbg t x]

/-- src/decode/instructions.rs:145-152 -/
instance : Debug TableError where
  dbg t
    | .TableIdx x => .tuple "TableIdx" [dbg t x]
    | .ElemIdx x => .tuple "ElemIdx" [dbg t x]

/-- src/decode/indices.rs:13-16 -/
instance : Debug DecodeMemIdxError where
  dbg t
    | .mk x => .tuple "DecodeMemIdxError" [dbg t x]

/-- src/decode/instructions.rs:1021-1034 -/
instance : Debug MemargError where
  dbg t
    | .InvalidFlagsBit x => .tuple "InvalidFlagsBit" [dbg t x]
    | .Align x => .tuple "Align" [dbg t x]
    | .Offset x => .tuple "Offset" [dbg t x]
    | .MemIdx x => .tuple "MemIdx" [dbg t x]

/-- src/decode/instructions.rs:154-164 -/
instance : Debug MemoryError where
  dbg t
    | .DecodeMemarg x => .tuple "DecodeMemarg" [dbg t x]
    | .DecodeDataIdx x => .tuple "DecodeDataIdx" [dbg t x]
    | .DecodeMemIdx x => .tuple "DecodeMemIdx" [dbg t x]

/-- src/decode/helpers.rs:68-72 -/
instance : Debug DecodeFloat32Error where
  dbg t
    | .ReadPayload x => .tuple "ReadPayload" [dbg t x]

/-- src/decode/helpers.rs:80-84 -/
instance : Debug DecodeFloat64Error where
  dbg t
    | .ReadPayload x => .tuple "ReadPayload" [dbg t x]

/-- src/decode/instructions.rs:166-182 -/
instance : Debug NumericError where
  dbg t
    | .ReadOpcode x => .tuple "ReadOpcode" [dbg t x]
    | .DecodeI32 x => .tuple "DecodeI32" [dbg t x]
    | .DecodeI64 x => .tuple "DecodeI64" [dbg t x]
    | .DecodeF32 x => .tuple "DecodeF32" [dbg t x]
    | .DecodeF64 x => .tuple "DecodeF64" [dbg t x]

/-- src/decode/instructions.rs:1058-1060 -/
instance : Debug LaneIdxError where
  dbg t
    | .mk x => .tuple "LaneIdxError" [dbg t x]

/-- src/decode/instructions.rs:184-200 -/
instance : Debug VectorError where
  dbg t
    | .ReadOpcode x => .tuple "ReadOpcode" [dbg t x]
    | .Memarg x => .tuple "Memarg" [dbg t x]
    | .LaneIdx x => .tuple "LaneIdx" [dbg t x]
    | .ReadImmediateBytes x => .tuple "ReadImmediateBytes" [dbg t x]
    | .InvalidOpcode x => .tuple "InvalidOpcode" [dbg t x]

/-- src/decode/instructions.rs:19-59 -/
instance : Debug ParseError where
  dbg t
    | .ReadOpcode x => .tuple "ReadOpcode" [dbg t x]
    | .Control x => .tuple "Control" [dbg t x]
    | .Reference x => .tuple "Reference" [dbg t x]
    | .Aggregate x => .tuple "Aggregate" [dbg t x]
    | .Parametric x => .tuple "Parametric" [dbg t x]
    | .Variable x => .tuple "Variable" [dbg t x]
    | .Table x => .tuple "Table" [dbg t x]
    | .Memory x => .tuple "Memory" [dbg t x]
    | .Numeric x => .tuple "Numeric" [dbg t x]
    | .Vector x => .tuple "Vector" [dbg t x]
    | .InvalidOpcode x => .tuple "InvalidOpcode" [dbg t x]
    | .InvalidMarkerByteAfterFC x => .tuple "InvalidMarkerByteAfterFC" [dbg t x]
    | .InvalidMarkerByteAfterFB x => .tuple "InvalidMarkerByteAfterFB" [dbg t x]

/-- src/decode/helpers.rs:14-21 -/
instance : Debug ParseExpressionError where
  dbg t
    | .ParseInstruction x => .tuple "ParseInstruction" [dbg t x]
    | .UnexpectedElse => .word "UnexpectedElse"

/-- the name of the type, src/decode/helpers.rs:14-21 -/
instance : TypeName ParseExpressionError := ⟨"ParseExpressionError"⟩

/-- src/decode/helpers.rs:147-154 -/
instance : Debug DecodeByteVectorError where
  dbg t
    | .DecodeLength x => .tuple "DecodeLength" [dbg t x]
    | .ReadElements x => .tuple "ReadElements" [dbg t x]

/-- src/decode/helpers.rs:165-172 -/
instance : Debug DecodeNameError where
  dbg t
    | .DecodeByteVector x => .tuple "DecodeByteVector" [dbg t x]
    | .Utf8 x => .tuple "Utf8" [dbg t x]

/-- src/decode/types/comptype.rs:92-102 -/
instance : Debug DecodeStorageTypeError where
  dbg t
    | .ReadMarkerByte x => .tuple "ReadMarkerByte" [dbg t x]
    | .DecodeValTypeOrPackType x0 x1 => .struct "DecodeValTypeOrPackType" [("marker", dbg t x0), ("source", dbg t x1)]

/-- src/decode/types/globaltype.rs:43-48 -/
instance : Debug InvalidMutabilityByteError where
  dbg t
    | .mk x => .tuple "InvalidMutabilityByteError" [dbg t x]

/-- src/decode/types/comptype.rs:67-77 -/
instance : Debug DecodeFieldTypeError where
  dbg t
    | .DecodeStorageType x => .tuple "DecodeStorageType" [dbg t x]
    | .ReadMutabilityMarkerByte x => .tuple "ReadMutabilityMarkerByte" [dbg t x]
    | .DecodeMutability x => .tuple "DecodeMutability" [dbg t x]

/-- the name of the type, src/decode/types/comptype.rs:67-77 -/
instance : TypeName DecodeFieldTypeError := ⟨"DecodeFieldTypeError"⟩

/-- src/decode/types/resulttype.rs:8-12 -/
instance : Debug DecodeResultTypeError where
  dbg t
    | .DecodeList x => .tuple "DecodeList" [dbg t x]

/-- src/decode/types/comptype.rs:14-33 -/
instance : Debug DecodeCompTypeError where
  dbg t
    | .ReadMarkerByte x => .tuple "ReadMarkerByte" [dbg t x]
    | .InvalidMarkerByte x => .tuple "InvalidMarkerByte" [dbg t x]
    | .DecodeStruct x => .tuple "DecodeStruct" [dbg t x]
    | .DecodeFuncParameters x => .tuple "DecodeFuncParameters" [dbg t x]
    | .DecodeFuncResults x => .tuple "DecodeFuncResults" [dbg t x]
    | .DecodeFieldType x => .tuple "DecodeFieldType" [dbg t x]

/-- src/decode/types/comptype.rs:124-126 -/
instance : Debug InvalidPackTypeMarkerError where
  dbg t
    | .mk x => .tuple "InvalidPackTypeMarkerError" [dbg t x]

/-- src/decode/types/limits.rs:8-21 -/
instance : Debug ParseLimitsError where
  dbg t
    | .ReadFlagByte x => .tuple "ReadFlagByte" [dbg t x]
    | .UnexpectedFlagByte x => .tuple "UnexpectedFlagByte" [dbg t x]
    | .ReadMinLimit x => .tuple "ReadMinLimit" [dbg t x]
    | .ReadMaxLimit x => .tuple "ReadMaxLimit" [dbg t x]

/-- src/decode/types/tabletype.rs:9-16 -/
instance : Debug DecodeTableTypeError where
  dbg t
    | .DecodeRefType x => .tuple "DecodeRefType" [dbg t x]
    | .DecodeLimits x => .tuple "DecodeLimits" [dbg t x]

/-- src/decode/types/memtype.rs:6-8 -/
instance : Debug DecodeMemoryTypeError where
  dbg t
    | .mk x => .tuple "DecodeMemoryTypeError" [dbg t x]

/-- the name of the type, src/decode/types/memtype.rs:6-8 -/
instance : TypeName DecodeMemoryTypeError := ⟨"DecodeMemoryTypeError"⟩

/-- src/decode/types/globaltype.rs:10-20 -/
instance : Debug DecodeGlobalTypeError where
  dbg t
    | .DecodeValueType x => .tuple "DecodeValueType" [dbg t x]
    | .DecodeMutability x => .tuple "DecodeMutability" [dbg t x]
    | .InvalidMutability x => .tuple "InvalidMutability" [dbg t x]

/-- src/decode/types/tagtype.rs:8-21 -/
instance : Debug DecodeTagTypeError where
  dbg t
    | .ReadMarkerByte x => .tuple "ReadMarkerByte" [dbg t x]
    | .InvalidMarkerByte x => .tuple "InvalidMarkerByte" [dbg t x]
    | .DecodeTypeIndex x => .tuple "DecodeTypeIndex" [dbg t x]

/-- the name of the type, src/decode/types/tagtype.rs:8-21 -/
instance : TypeName DecodeTagTypeError := ⟨"DecodeTagTypeError"⟩

/-- src/decode/types/externtype.rs:16-40 -/
instance : Debug DecodeExternTypeError where
  dbg t
    | .ReadMarkerByte x => .tuple "ReadMarkerByte" [dbg t x]
    | .InvalidMarkerByte x => .tuple "InvalidMarkerByte" [dbg t x]
    | .DecodeTypeIndex x => .tuple "DecodeTypeIndex" [dbg t x]
    | .DecodeTableType x => .tuple "DecodeTableType" [dbg t x]
    | .DecodeMemoryType x => .tuple "DecodeMemoryType" [dbg t x]
    | .DecodeGlobalType x => .tuple "DecodeGlobalType" [dbg t x]
    | .DecodeTagType x => .tuple "DecodeTagType" [dbg t x]

/-- src/decode/types/rectype.rs:41-51 -/
instance : Debug DecodeSubTypeError where
  dbg t
    | .Io x => .tuple "Io" [dbg t x]
    | .DecodeSupertypes x => .tuple "DecodeSupertypes" [dbg t x]
    | .DecodeCompType x => .tuple "DecodeCompType" [dbg t x]

/-- the name of the type, src/decode/types/rectype.rs:41-51 -/
instance : TypeName DecodeSubTypeError := ⟨"DecodeSubTypeError"⟩

/-- src/decode/types/rectype.rs:10-20 -/
instance : Debug DecodeRecTypeError where
  dbg t
    | .Io x => .tuple "Io" [dbg t x]
    | .DecodeSubtypes x => .tuple "DecodeSubtypes" [dbg t x]
    | .DecodeSubtype x => .tuple "DecodeSubtype" [dbg t x]

/-- the name of the type, src/decode/types/rectype.rs:10-20 -/
instance : TypeName DecodeRecTypeError := ⟨"DecodeRecTypeError"⟩

/-- src/decode/sections/code.rs:85-95 -/
instance : Debug DecodeCodeLocalsError where
  dbg t
    | .DecodeLocalsCount x => .tuple "DecodeLocalsCount" [dbg t x]
    | .LocalsCountOutOfBound x0 x1 => .struct "LocalsCountOutOfBound" [("max_locals", dbg t x0), ("actual_locals", dbg t x1)]
    | .DecodeLocalValType x => .tuple "DecodeLocalValType" [dbg t x]

/-- the name of the type, src/decode/sections/code.rs:85-95 -/
instance : TypeName DecodeCodeLocalsError := ⟨"DecodeCodeLocalsError"⟩

/-- src/decode/sections/code.rs:29-48 -/
instance : Debug DecodeCodeError where
  dbg t
    | .DecodeFunctionSize x => .tuple "DecodeFunctionSize" [dbg t x]
    | .DecodeLocalsVector x => .tuple "DecodeLocalsVector" [dbg t x]
    | .DecodeFunctionBody x => .tuple "DecodeFunctionBody" [dbg t x]
    | .EntrySizeMismatch x0 x1 x2 => .struct "EntrySizeMismatch" [("declared_bytes", dbg t x0), ("leftover_bytes", dbg t x1), ("consumed_bytes", dbg t x2)]

/-- the name of the type, src/decode/sections/code.rs:29-48 -/
instance : TypeName DecodeCodeError := ⟨"DecodeCodeError"⟩

/-- src/decode/sections/code.rs:9-13 -/
instance : Debug DecodeCodeSectionError where
  dbg t
    | .DecodeList x => .tuple "DecodeList" [dbg t x]

/-- src/decode/sections/custom.rs:6-13 -/
instance : Debug DecodeCustomSectionError where
  dbg t
    | .DecodeName x => .tuple "DecodeName" [dbg t x]
    | .Io x => .tuple "Io" [dbg t x]

/-- src/decode/sections/data.rs:24-40 -/
instance : Debug DecodeDataSegmentError where
  dbg t
    | .DecodeBitfield x => .tuple "DecodeBitfield" [dbg t x]
    | .InvalidBitfield x => .tuple "InvalidBitfield" [dbg t x]
    | .DecodeOffsetExpr x => .tuple "DecodeOffsetExpr" [dbg t x]
    | .DecodeInitVector x => .tuple "DecodeInitVector" [dbg t x]
    | .DecodeMemIdx x => .tuple "DecodeMemIdx" [dbg t x]

/-- the name of the type, src/decode/sections/data.rs:24-40 -/
instance : TypeName DecodeDataSegmentError := ⟨"DecodeDataSegmentError"⟩

/-- src/decode/sections/data.rs:12-16 -/
instance : Debug DecodeDataSectionError where
  dbg t
    | .DecodeList x => .tuple "DecodeList" [dbg t x]

/-- src/decode/sections/data_count.rs:5-9 -/
instance : Debug DecodeDataCountSectionError where
  dbg t
    | .DecodeDataSegmentCount x => .tuple "DecodeDataSegmentCount" [dbg t x]

/-- src/decode/sections/element.rs:166-173 -/
instance : Debug DecodeElementKindError where
  dbg t
    | .Io x => .tuple "Io" [dbg t x]
    | .InvalidElemKind x => .tuple "InvalidElemKind" [dbg t x]

/-- src/decode/sections/element.rs:31-59 -/
instance : Debug DecodeElementError where
  dbg t
    | .DecodeBitfield x => .tuple "DecodeBitfield" [dbg t x]
    | .InvalidBitfield x => .tuple "InvalidBitfield" [dbg t x]
    | .DecodeOffsetExpression x => .tuple "DecodeOffsetExpression" [dbg t x]
    | .DecodeElementKind x => .tuple "DecodeElementKind" [dbg t x]
    | .DecodeElementExpression x => .tuple "DecodeElementExpression" [dbg t x]
    | .DecodeTableIdx x => .tuple "DecodeTableIdx" [dbg t x]
    | .DecodeReferenceType x => .tuple "DecodeReferenceType" [dbg t x]
    | .DecodeInit x => .tuple "DecodeInit" [dbg t x]
    | .DecodeFuncIdxVector x => .tuple "DecodeFuncIdxVector" [dbg t x]

/-- the name of the type, src/decode/sections/element.rs:31-59 -/
instance : TypeName DecodeElementError := ⟨"DecodeElementError"⟩

/-- src/decode/sections/element.rs:15-19 -/
instance : Debug DecodeElementSectionError where
  dbg t
    | .DecodeList x => .tuple "DecodeList" [dbg t x]

/-- src/decode/sections/export.rs:50-54 -/
instance : Debug InvalidExportDescMarkerByte where
  dbg t
    | .mk x => .tuple "InvalidExportDescMarkerByte" [dbg t x]

/-- src/decode/sections/export.rs:22-35 -/
instance : Debug DecodeExportError where
  dbg t
    | .DecodeName x => .tuple "DecodeName" [dbg t x]
    | .ReadDescriptorMarkerByte x => .tuple "ReadDescriptorMarkerByte" [dbg t x]
    | .DecodeIndex x => .tuple "DecodeIndex" [dbg t x]
    | .InvalidDescriptorMarkerByte x => .tuple "InvalidDescriptorMarkerByte" [dbg t x]

/-- the name of the type, src/decode/sections/export.rs:22-35 -/
instance : TypeName DecodeExportError := ⟨"DecodeExportError"⟩

/-- src/decode/sections/export.rs:10-14 -/
instance : Debug DecodeExportSectionError where
  dbg t
    | .DecodeList x => .tuple "DecodeList" [dbg t x]

/-- src/decode/sections/function.rs:7-11 -/
instance : Debug DecodeFunctionSectionError where
  dbg t
    | .DecodeList x => .tuple "DecodeList" [dbg t x]

/-- src/decode/sections/global.rs:20-27 -/
instance : Debug DecodeGlobalError where
  dbg t
    | .DecodeGlobalType x => .tuple "DecodeGlobalType" [dbg t x]
    | .DecodeInit x => .tuple "DecodeInit" [dbg t x]

/-- the name of the type, src/decode/sections/global.rs:20-27 -/
instance : TypeName DecodeGlobalError := ⟨"DecodeGlobalError"⟩

/-- src/decode/sections/global.rs:8-12 -/
instance : Debug DecodeGlobalSectionError where
  dbg t
    | .DecodeList x => .tuple "DecodeList" [dbg t x]

/-- src/decode/sections/import.rs:24-34 -/
instance : Debug DecodeImportError where
  dbg t
    | .DecodeModuleName x => .tuple "DecodeModuleName" [dbg t x]
    | .DecodeItemName x => .tuple "DecodeItemName" [dbg t x]
    | .DecodeExternType x => .tuple "DecodeExternType" [dbg t x]

/-- the name of the type, src/decode/sections/import.rs:24-34 -/
instance : TypeName DecodeImportError := ⟨"DecodeImportError"⟩

/-- src/decode/sections/import.rs:8-12 -/
instance : Debug DecodeImportSectionError where
  dbg t
    | .DecodeList x => .tuple "DecodeList" [dbg t x]

/-- src/decode/sections/memory.rs:7-11 -/
instance : Debug DecodeMemorySectionError where
  dbg t
    | .DecodeList x => .tuple "DecodeList" [dbg t x]

/-- src/decode/sections/start.rs:6-8 -/
instance : Debug DecodeStartSectionError where
  dbg t
    | .mk x => .tuple "DecodeStartSectionError" [dbg t x]

/-- src/decode/sections/table.rs:25-38 -/
instance : Debug DecodeTableError where
  dbg t
    | .Io x => .tuple "Io" [dbg t x]
    | .UnexpectedMarkerByte x => .tuple "UnexpectedMarkerByte" [dbg t x]
    | .DecodeTableType x => .tuple "DecodeTableType" [dbg t x]
    | .DecodeExpression x => .tuple "DecodeExpression" [dbg t x]

/-- the name of the type, src/decode/sections/table.rs:25-38 -/
instance : TypeName DecodeTableError := ⟨"DecodeTableError"⟩

/-- src/decode/sections/table.rs:10-14 -/
instance : Debug DecodeTableSectionError where
  dbg t
    | .DecodeList x => .tuple "DecodeList" [dbg t x]

/-- src/decode/sections/tag.rs:7-11 -/
instance : Debug DecodeTagSectionError where
  dbg t
    | .DecodeList x => .tuple "DecodeList" [dbg t x]

/-- src/decode/sections/type.rs:7-11 -/
instance : Debug DecodeTypeSectionError where
  dbg t
    | .DecodeList x => .tuple "DecodeList" [dbg t x]

/-- src/decode/module.rs:76-78 -/
instance : Debug InvalidSectionIdError where
  dbg t
    | .mk x => .tuple "InvalidSectionIdError" [dbg t x]

/-- src/decode/module.rs:353-360 -/
instance : Debug ParsePreambleError where
  dbg t
    | .Io x => .tuple "Io" [dbg t x]
    | .Unexpected x => .tuple "Unexpected" [dbg t x]

/-- src/decode/module.rs:373-383 -/
instance : Debug DecodeSectionHeaderError where
  dbg t
    | .ReadSectionIdByte x => .tuple "ReadSectionIdByte" [dbg t x]
    | .InvalidSectionId x => .tuple "InvalidSectionId" [dbg t x]
    | .DecodeSectionSize x => .tuple "DecodeSectionSize" [dbg t x]

/-- src/decode/module.rs:121-204 -/
instance : Debug DecodeModuleError where
  dbg t
    | .ParsePreamble x => .tuple "ParsePreamble" [dbg t x]
    | .CodeFuncEntriesLenMismatch x0 x1 => .struct "CodeFuncEntriesLenMismatch" [("codes_len", dbg t x0), ("funcs_len", dbg t x1)]
    | .DataCountMismatch x0 x1 => .struct "DataCountMismatch" [("datas_len", dbg t x0), ("data_count", dbg t x1)]
    | .SectionOutOfOrder x0 x1 => .struct "SectionOutOfOrder" [("current", dbg t x0), ("previous", dbg t x1)]
    | .DuplicateSection x => .tuple "DuplicateSection" [dbg t x]
    | .SectionSizeMismatch x0 x1 x2 => .struct "SectionSizeMismatch" [("section_kind", dbg t x0), ("declared", dbg t x1), ("got", dbg t x2)]
    | .DataCountDatasLenMismatch x0 x1 => .struct "DataCountDatasLenMismatch" [("datas_len", dbg t x0), ("data_count", dbg t x1)]
    | .DecodeDataCount => .tuple "DecodeDataCount" [.tuple "TryFromIntError" [.unit]]
    | .DataIndexWithoutDataCount => .word "DataIndexWithoutDataCount"
    | .DecodeSectionHeader x => .tuple "DecodeSectionHeader" [dbg t x]
    | .DecodeCustomSection x => .tuple "DecodeCustomSection" [dbg t x]
    | .DecodeTypeSection x => .tuple "DecodeTypeSection" [dbg t x]
    | .DecodeImportSection x => .tuple "DecodeImportSection" [dbg t x]
    | .DecodeFunctionSection x => .tuple "DecodeFunctionSection" [dbg t x]
    | .DecodeTableSection x => .tuple "DecodeTableSection" [dbg t x]
    | .DecodeMemorySection x => .tuple "DecodeMemorySection" [dbg t x]
    | .DecodeGlobalSection x => .tuple "DecodeGlobalSection" [dbg t x]
    | .DecodeExportSection x => .tuple "DecodeExportSection" [dbg t x]
    | .DecodeStartSection x => .tuple "DecodeStartSection" [dbg t x]
    | .DecodeElementSection x => .tuple "DecodeElementSection" [dbg t x]
    | .DecodeDatacountSection x => .tuple "DecodeDatacountSection" [dbg t x]
    | .DecodeCodeSection x => .tuple "DecodeCodeSection" [dbg t x]
    | .DecodeDataSection x => .tuple "DecodeDataSection" [dbg t x]
    | .DecodeTagSection x => .tuple "DecodeTagSection" [dbg t x]

end Wadec
