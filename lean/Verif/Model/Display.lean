import Verif.Model.Errors
import Verif.Model.Module

/-! Generated by tools/gen_errors.py from the `#[error(..)]` attributes of /repo/src/decode.

`ErrText.chain io e` is what `wadec-cli` (and every caller that follows `std::error::Error::source()`)
shows of an error: the `Display` text of `e`, of `e.source()`, of its source, and so on.  thiserror
gives a variant the source in its `#[from]`/`#[source]`/`source` field; `#[error(transparent)]`
forwards both `Display` and `source()` to the payload; all other payloads are not sources.
`io` gives the chain of an `io::Error`, about which the code knows nothing. -/

namespace Wadec

/-- std's formatting for the `{:#04X}`, `{:#X?}` in the `#[error(..)]` attributes of src/decode/**/*.rs:
`{:X}` of a number, without leading zeros -/
def upperHex (n : Nat) : String := String.ofList ((Nat.toDigits 16 n).map Char.toUpper)

/-- `{:#04X}` (e.g. src/decode/module.rs:77): `0x` and at least two upper case digits -/
def hex04 (n : Nat) : String := if n < 16 then "0x0" ++ upperHex n else "0x" ++ upperHex n

/-- `{:#X?}` (src/decode/module.rs:358) of a byte array: one element per line -/
def hexArray (bs : List UInt8) : String :=
  if bs.isEmpty then "[]"
  else "[\n" ++ String.join (bs.map fun b => "    0x" ++ upperHex b.toNat ++ ",\n") ++ "]"

/-- src/decode/mod.rs:29-35 `FromMarkerByte::markers_formatted` -/
def markersFormatted {α : Type} (name : α → String) (markers : List (UInt8 × α)) : String :=
  ", ".intercalate (markers.map fun (b, v) => hex04 b.toNat ++ " (" ++ name v ++ ")")

/-- derived `Debug` of `SectionKind` (src/core/module.rs:172-187) -/
def SectionKind.debug : SectionKind → String
  | .Custom => "Custom"
  | .Type => "Type"
  | .Import => "Import"
  | .Function => "Function"
  | .Table => "Table"
  | .Memory => "Memory"
  | .Tag => "Tag"
  | .Global => "Global"
  | .Export => "Export"
  | .Start => "Start"
  | .Element => "Element"
  | .DataCount => "DataCount"
  | .Code => "Code"
  | .Data => "Data"

/-- derived `Debug` of `AbsHeapType` (src/core/types/heaptype.rs:51-64) -/
def AbsHeapType.debug : AbsHeapType → String
  | .Exn => "Exn"
  | .Array => "Array"
  | .Struct => "Struct"
  | .I31 => "I31"
  | .Eq => "Eq"
  | .Any => "Any"
  | .Extern => "Extern"
  | .Func => "Func"
  | .None => "None"
  | .NoExtern => "NoExtern"
  | .NoFunc => "NoFunc"
  | .NoExn => "NoExn"

/-- derived `Debug` of `Mut` (src/core/types/globaltype.rs:12-15) -/
def Mut.debug : Mut → String
  | .Const => "Const"
  | .Var => "Var"

/-- derived `Debug` of `PackType` (src/core/types/comptype.rs:31-34) -/
def PackType.debug : PackType → String
  | .I8 => "I8"
  | .I16 => "I16"

/-- The text of an error and of its sources: `Display` and `source()` as derived by thiserror from the
`#[error(..)]`, `#[from]` and `#[source]` attributes in src/decode/**/*.rs. -/
class ErrText (ε : Type) where
  chain : (IoError → List String) → ε → List String

/-- `std::io::Error` (in src/decode/**/*.rs) -/
instance : ErrText IoError where
  chain io e := io e

/-- `Display` of `std::string::FromUtf8Error` (that of `Utf8Error`; in
src/decode/helpers.rs:171); it has no source -/
instance : ErrText FromUtf8Error where
  chain _ e := [match e.error_len with
    | some n => "invalid utf-8 sequence of " ++ toString n ++ " bytes from index " ++ toString e.valid_up_to
    | none => "incomplete utf-8 byte sequence from index " ++ toString e.valid_up_to]

/-- src/decode/integer.rs:8-18 -/
instance : ErrText DecodeU32Error where
  chain io
    | .TooLarge => ["uint32 too large"]
    | .RepresentationTooLong => ["uint32 representation too long"]
    | .Io e => ErrText.chain io e

/-- src/decode/integer.rs:52-62 -/
instance : ErrText DecodeU64Error where
  chain io
    | .TooLarge => ["uint64 too large"]
    | .RepresentationTooLong => ["uint64 representation too long"]
    | .Io e => ErrText.chain io e

/-- src/decode/integer.rs:96-106 -/
instance : ErrText DecodeI32Error where
  chain io
    | .TooLarge => ["int32 too large"]
    | .RepresentationTooLong => ["int32 representation too long"]
    | .Io e => ErrText.chain io e

/-- src/decode/integer.rs:139-149 -/
instance : ErrText DecodeI64Error where
  chain io
    | .RepresentationTooLong => ["int64 representation too long"]
    | .IncorrectSignExtension => ["int64 incorrect sign extension"]
    | .Io e => ErrText.chain io e

/-- src/decode/integer.rs:190-200 -/
instance : ErrText DecodeS33Error where
  chain io
    | .RepresentationTooLong => ["s33 representation too long"]
    | .IncorrectSignExtension => ["s33 incorrect sign extension"]
    | .Io e => ErrText.chain io e

/-- src/decode/indices.rs:13-16 -/
instance : ErrText DecodeLabelIdxError where
  chain io
    | .mk e => ("failed decoding LabelIdx index") :: ErrText.chain io e

/-- src/decode/helpers.rs:92-99 -/
instance {E : Type} [ErrText E] : ErrText (DecodeListError E) where
  chain io
    | .DecodeLength e => ("failed decoding vector length") :: ErrText.chain io e
    | .ParseElement x0 e => ("failed parsing vector element at position " ++ toString x0.toNat) :: ErrText.chain io e

/-- src/decode/indices.rs:13-16 -/
instance : ErrText DecodeFuncIdxError where
  chain io
    | .mk e => ("failed decoding FuncIdx index") :: ErrText.chain io e

/-- src/decode/indices.rs:13-16 -/
instance : ErrText DecodeTableIdxError where
  chain io
    | .mk e => ("failed decoding TableIdx index") :: ErrText.chain io e

/-- src/decode/indices.rs:13-16 -/
instance : ErrText DecodeTypeIdxError where
  chain io
    | .mk e => ("failed decoding TypeIdx index") :: ErrText.chain io e

/-- src/decode/indices.rs:13-16 -/
instance : ErrText DecodeTagIdxError where
  chain io
    | .mk e => ("failed decoding TagIdx index") :: ErrText.chain io e

/-- src/decode/instructions.rs:1113-1126 -/
instance : ErrText CatchError where
  chain io
    | .ReadMarkerByte e => ("failed reading catch block marker byte") :: ErrText.chain io e
    | .InvalidMarkerByte x0 => ["invalid marker byte: expected 0x00, 0x01, 0x02 or 0x03; got " ++ hex04 x0.toNat]
    | .DecodeTagIdx e => ErrText.chain io e
    | .DecodeLabelIdx e => ErrText.chain io e

/-- src/decode/instructions.rs:1072-1082 -/
instance : ErrText BlockTypeError where
  chain io
    | .ReadMarkerByte _ => ["failed reading block type marker byte"]
    | .DecodeIndex e => ("failed decoding block type index") :: ErrText.chain io e
    | .NegativeTypeIndex x0 => ["blocktype Type index negative: " ++ toString x0.toInt]

/-- src/decode/types/heaptype.rs:10-20 -/
instance : ErrText DecodeHeapTypeError where
  chain io
    | .ReadMarkerByte e => ("failed reading Heap type marker byte") :: ErrText.chain io e
    | .DecodeTypeIndex e => ("failed decoding type index") :: ErrText.chain io e
    | .NegativeTypeIndex x0 => ["type index negative: " ++ toString x0.toInt]

/-- src/decode/instructions.rs:61-98 -/
instance : ErrText ControlError where
  chain io
    | .LabelIdx e => ("failed decoding label index") :: ErrText.chain io e
    | .DecodeLabelIdxVector e => ("failed decoding label index") :: ErrText.chain io e
    | .FuncIdx _ => ["failed decoding function index"]
    | .TableIdx _ => ["failed decoding table index"]
    | .TypeIdx _ => ["failed decoding type index"]
    | .TagIdx _ => ["failed decoding tag index"]
    | .DecodeCatchListError e => ("failed decoding Catch list") :: ErrText.chain io e
    | .BlockType _ => ["failed decoding block type"]
    | .UnexpectedElse => ["unexpected `Else` token"]
    | .ReadCastNullabilityMarker _ => ["failed decoding nullability for cast operation"]
    | .InvalidCastNullabilityMarker x0 => ["invalid cast operation marker byte: expected 0x00, 0x01, 0x02 or 0x03; got " ++ hex04 x0.toNat]
    | .HeapType e => ("failed decoding heap type for cast operation") :: ErrText.chain io e

/-- src/decode/instructions.rs:100-110 -/
instance : ErrText ReferenceError where
  chain _
    | .HeapType _ => ["failed decoding heap type"]
    | .FuncIdx _ => ["failed decoding function index"]
    | .ReadSubOpcode _ => ["failed reading sub-opcode"]

/-- src/decode/indices.rs:13-16 -/
instance : ErrText DecodeDataIdxError where
  chain io
    | .mk e => ("failed decoding DataIdx index") :: ErrText.chain io e

/-- src/decode/indices.rs:13-16 -/
instance : ErrText DecodeElemIdxError where
  chain io
    | .mk e => ("failed decoding ElemIdx index") :: ErrText.chain io e

/-- src/decode/instructions.rs:112-128 -/
instance : ErrText AggregateError where
  chain _
    | .TypeIdx _ => ["failed decoding type index"]
    | .FieldIndex _ => ["failed decoding field index"]
    | .DataIdx _ => ["failed decoding data index"]
    | .ElemIdx _ => ["failed decoding element index"]
    | .ArrayFixedLength _ => ["failed decoding array fixed length"]

/-- src/decode/types/heaptype.rs:61-66 -/
instance : ErrText InvalidAbsHeapTypeMarkerError where
  chain _
    | .mk x0 => ["invalid AbsHeapType marker byte - expected one of " ++ markersFormatted AbsHeapType.debug AbsHeapType.markers ++ "; got " ++ hex04 x0.toNat]

/-- src/decode/types/heaptype.rs:82-89 -/
instance : ErrText DecodeAbsHeapTypeError where
  chain io
    | .ReadMarkerByte e => ("failed reading Heap type marker byte") :: ErrText.chain io e
    | .InvalidMarkerByte e => ErrText.chain io e

/-- src/decode/types/reftype.rs:9-19 -/
instance : ErrText DecodeRefTypeError where
  chain io
    | .Io e => ErrText.chain io e
    | .DecodeHeapType e => ErrText.chain io e
    | .InvalidMarkerByte e => ErrText.chain io e

/-- src/decode/types/valtype.rs:10-17 -/
instance : ErrText DecodeValTypeError where
  chain io
    | .Io e => ErrText.chain io e
    | .DecodeRefType e => ErrText.chain io e

/-- src/decode/instructions.rs:130-134 -/
instance : ErrText ParametricError where
  chain io
    | .DecodeList e => ("failed decoding value type vector") :: ErrText.chain io e

/-- src/decode/indices.rs:13-16 -/
instance : ErrText DecodeLocalIdxError where
  chain io
    | .mk e => ("failed decoding LocalIdx index") :: ErrText.chain io e

/-- src/decode/indices.rs:13-16 -/
instance : ErrText DecodeGlobalIdxError where
  chain io
    | .mk e => ("failed decoding GlobalIdx index") :: ErrText.chain io e

/-- src/decode/instructions.rs:136-143 -/
instance : ErrText VariableError where
  chain _
    | .LocalIdx _ => ["failed decoding Local index"]
    | .GlobalIdx _ => ["failed decoding Global index"]

/-- src/decode/instructions.rs:145-152 -/
instance : ErrText TableError where
  chain _
    | .TableIdx _ => ["failed decoding table index"]
    | .ElemIdx _ => ["failed decoding element index"]

/-- src/decode/indices.rs:13-16 -/
instance : ErrText DecodeMemIdxError where
  chain io
    | .mk e => ("failed decoding MemIdx index") :: ErrText.chain io e

/-- src/decode/instructions.rs:1021-1034 -/
instance : ErrText MemargError where
  chain io
    | .InvalidFlagsBit x0 => ["Invalid alignment flag " ++ toString x0.toNat ++ "; should be less than 2^7"]
    | .Align _ => ["failed decoding alignment"]
    | .Offset _ => ["failed decoding offset"]
    | .MemIdx e => ("failed decoding memory index") :: ErrText.chain io e

/-- src/decode/instructions.rs:154-164 -/
instance : ErrText MemoryError where
  chain _
    | .DecodeMemarg _ => ["failed decoding Memarg"]
    | .DecodeDataIdx _ => ["failed decoding data index"]
    | .DecodeMemIdx _ => ["failed decoding memory index"]

/-- src/decode/helpers.rs:68-72 -/
instance : ErrText DecodeFloat32Error where
  chain io
    | .ReadPayload e => ("failed reading 4 bytes for f32") :: ErrText.chain io e

/-- src/decode/helpers.rs:80-84 -/
instance : ErrText DecodeFloat64Error where
  chain io
    | .ReadPayload e => ("failed reading 8 bytes for f64") :: ErrText.chain io e

/-- src/decode/instructions.rs:166-182 -/
instance : ErrText NumericError where
  chain io
    | .ReadOpcode _ => ["failed reading 0xFC-prefixed numeric opcode"]
    | .DecodeI32 e => ErrText.chain io e
    | .DecodeI64 e => ErrText.chain io e
    | .DecodeF32 e => ErrText.chain io e
    | .DecodeF64 e => ErrText.chain io e

/-- src/decode/instructions.rs:1058-1060 -/
instance : ErrText LaneIdxError where
  chain io
    | .mk e => ("failed decoding Lane index") :: ErrText.chain io e

/-- src/decode/instructions.rs:184-200 -/
instance : ErrText VectorError where
  chain io
    | .ReadOpcode _ => ["failed reading Vector opcode"]
    | .Memarg e => ErrText.chain io e
    | .LaneIdx e => ErrText.chain io e
    | .ReadImmediateBytes _ => ["failed reading immediate bytes"]
    | .InvalidOpcode x0 => ["unexpected Vector opcode: " ++ hex04 x0.toNat]

/-- src/decode/instructions.rs:19-59 -/
instance : ErrText ParseError where
  chain io
    | .ReadOpcode e => ("failed reading instruction opcode") :: ErrText.chain io e
    | .Control e => ("failed decoding control instruction") :: ErrText.chain io e
    | .Reference e => ("failed decoding reference instruction") :: ErrText.chain io e
    | .Aggregate e => ("failed decoding aggregate instruction") :: ErrText.chain io e
    | .Parametric e => ("failed decoding parametric instruction") :: ErrText.chain io e
    | .Variable e => ("failed decoding variable instruction") :: ErrText.chain io e
    | .Table e => ("failed decoding table instruction") :: ErrText.chain io e
    | .Memory e => ("failed decoding memory instruction") :: ErrText.chain io e
    | .Numeric e => ("failed decoding numeric instruction") :: ErrText.chain io e
    | .Vector e => ("failed decoding vector instruction") :: ErrText.chain io e
    | .InvalidOpcode x0 => ["unexpected opcode: " ++ hex04 x0.toNat]
    | .InvalidMarkerByteAfterFC x0 => ["unexpected opcode after 0xFC marker byte: " ++ hex04 x0.toNat]
    | .InvalidMarkerByteAfterFB x0 => ["unexpected opcode after 0xFB marker byte: " ++ hex04 x0.toNat]

/-- src/decode/helpers.rs:14-21 -/
instance : ErrText ParseExpressionError where
  chain io
    | .ParseInstruction e => ("failed parsing instruction") :: ErrText.chain io e
    | .UnexpectedElse => ["unexpected Else delimiter"]

/-- src/decode/helpers.rs:147-154 -/
instance : ErrText DecodeByteVectorError where
  chain io
    | .DecodeLength e => ("failed decoding vector length") :: ErrText.chain io e
    | .ReadElements e => ("failed reading vector elements") :: ErrText.chain io e

/-- src/decode/helpers.rs:165-172 -/
instance : ErrText DecodeNameError where
  chain io
    | .DecodeByteVector e => ErrText.chain io e
    | .Utf8 e => ErrText.chain io e

/-- src/decode/types/comptype.rs:92-102 -/
instance : ErrText DecodeStorageTypeError where
  chain io
    | .ReadMarkerByte e => ErrText.chain io e
    | .DecodeValTypeOrPackType x0 e => ("failed decoding as either PackType or ValType with marker byte " ++ hex04 x0.toNat) :: ErrText.chain io e

/-- src/decode/types/globaltype.rs:43-48 -/
instance : ErrText InvalidMutabilityByteError where
  chain _
    | .mk x0 => ["invalid Mutability marker byte - expected one of " ++ markersFormatted Mut.debug Mut.markers ++ "; got " ++ hex04 x0.toNat]

/-- src/decode/types/comptype.rs:67-77 -/
instance : ErrText DecodeFieldTypeError where
  chain io
    | .DecodeStorageType e => ErrText.chain io e
    | .ReadMutabilityMarkerByte e => ErrText.chain io e
    | .DecodeMutability e => ErrText.chain io e

/-- src/decode/types/resulttype.rs:8-12 -/
instance : ErrText DecodeResultTypeError where
  chain io
    | .DecodeList e => ErrText.chain io e

/-- src/decode/types/comptype.rs:14-33 -/
instance : ErrText DecodeCompTypeError where
  chain io
    | .ReadMarkerByte e => ErrText.chain io e
    | .InvalidMarkerByte x0 => ["unexpected CompType marker byte: expected 0x5E, 0x5F or 0x60; got " ++ hex04 x0.toNat]
    | .DecodeStruct e => ("failed decoding Field type list") :: ErrText.chain io e
    | .DecodeFuncParameters _ => ["failed decoding Function type parameters"]
    | .DecodeFuncResults _ => ["failed decoding Function type results"]
    | .DecodeFieldType e => ErrText.chain io e

/-- src/decode/types/comptype.rs:124-126 -/
instance : ErrText InvalidPackTypeMarkerError where
  chain _
    | .mk x0 => ["invalid PackType marker byte - expected one of " ++ markersFormatted PackType.debug PackType.markers ++ "; got " ++ hex04 x0.toNat]

/-- src/decode/types/limits.rs:8-21 -/
instance : ErrText ParseLimitsError where
  chain _
    | .ReadFlagByte _ => ["failed reading flag byte"]
    | .UnexpectedFlagByte x0 => ["unexpected Limits flag byte: expected 0x00, 0x01, 0x04 or 0x05; got " ++ hex04 x0.toNat]
    | .ReadMinLimit _ => ["failed reading minimum limit"]
    | .ReadMaxLimit _ => ["failed reading maximum limit"]

/-- src/decode/types/tabletype.rs:9-16 -/
instance : ErrText DecodeTableTypeError where
  chain io
    | .DecodeRefType e => ErrText.chain io e
    | .DecodeLimits e => ErrText.chain io e

/-- src/decode/types/memtype.rs:6-8 -/
instance : ErrText DecodeMemoryTypeError where
  chain io
    | .mk e => ("failed decoding Memory type") :: ErrText.chain io e

/-- src/decode/types/globaltype.rs:10-20 -/
instance : ErrText DecodeGlobalTypeError where
  chain io
    | .DecodeValueType e => ("failed decoding Value type") :: ErrText.chain io e
    | .DecodeMutability _ => ["failed decoding Mutability"]
    | .InvalidMutability e => ErrText.chain io e

/-- src/decode/types/tagtype.rs:8-21 -/
instance : ErrText DecodeTagTypeError where
  chain io
    | .ReadMarkerByte e => ErrText.chain io e
    | .InvalidMarkerByte x0 => ["unexpected TagType marker byte: expected " ++ hex04 0x00 ++ "; got " ++ hex04 x0.toNat]
    | .DecodeTypeIndex e => ("failed decoding Tag type") :: ErrText.chain io e

/-- src/decode/types/externtype.rs:16-40 -/
instance : ErrText DecodeExternTypeError where
  chain io
    | .ReadMarkerByte e => ErrText.chain io e
    | .InvalidMarkerByte x0 => ["unexpected ExternType marker byte: expected 0x00, 0x01, 0x02, 0x03 or 0x04; got " ++ hex04 x0.toNat]
    | .DecodeTypeIndex e => ErrText.chain io e
    | .DecodeTableType e => ErrText.chain io e
    | .DecodeMemoryType e => ErrText.chain io e
    | .DecodeGlobalType e => ErrText.chain io e
    | .DecodeTagType e => ErrText.chain io e

/-- src/decode/types/rectype.rs:41-51 -/
instance : ErrText DecodeSubTypeError where
  chain io
    | .Io e => ErrText.chain io e
    | .DecodeSupertypes e => ("failed decoding supertypes") :: ErrText.chain io e
    | .DecodeCompType e => ("failed decoding recursive subtype") :: ErrText.chain io e

/-- src/decode/types/rectype.rs:10-20 -/
instance : ErrText DecodeRecTypeError where
  chain io
    | .Io e => ErrText.chain io e
    | .DecodeSubtypes e => ("failed decoding subtypes list") :: ErrText.chain io e
    | .DecodeSubtype e => ("failed decoding subtype") :: ErrText.chain io e

/-- src/decode/sections/code.rs:85-95 -/
instance : ErrText DecodeCodeLocalsError where
  chain io
    | .DecodeLocalsCount _ => ["failed decoding count of function locals"]
    | .LocalsCountOutOfBound x0 x1 => ["too many locals: expected at most " ++ toString x0.toNat ++ "; got " ++ toString x1.toNat]
    | .DecodeLocalValType e => ("failed decoding local Value type") :: ErrText.chain io e

/-- src/decode/sections/code.rs:29-48 -/
instance : ErrText DecodeCodeError where
  chain io
    | .DecodeFunctionSize _ => ["failed decoding size of function code"]
    | .DecodeLocalsVector e => ("failed decoding locals vector") :: ErrText.chain io e
    | .DecodeFunctionBody e => ("failed decoding function body expression") :: ErrText.chain io e
    | .EntrySizeMismatch x0 x1 x2 => ["Code entry size mismatch: declared " ++ toString x0.toNat ++ " bytes; consumed " ++ toString x2.toNat ++ " (leftover: " ++ toString x1.toNat ++ ")"]

/-- src/decode/sections/code.rs:9-13 -/
instance : ErrText DecodeCodeSectionError where
  chain io
    | .DecodeList e => ("failed decoding Code section") :: ErrText.chain io e

/-- src/decode/sections/custom.rs:6-13 -/
instance : ErrText DecodeCustomSectionError where
  chain io
    | .DecodeName e => ("failed decoding custom section name") :: ErrText.chain io e
    | .Io e => ("failed reading custom section contents") :: ErrText.chain io e

/-- src/decode/sections/data.rs:24-40 -/
instance : ErrText DecodeDataSegmentError where
  chain io
    | .DecodeBitfield _ => ["failed decoding bitfield"]
    | .InvalidBitfield x0 => ["invalid bitfield: expected 0 (passive), 1 or 2 (active); got " ++ toString x0.toNat]
    | .DecodeOffsetExpr _ => ["failed decoding offset expression"]
    | .DecodeInitVector e => ("failed decoding init byte vector") :: ErrText.chain io e
    | .DecodeMemIdx e => ("failed decoding Memory index") :: ErrText.chain io e

/-- src/decode/sections/data.rs:12-16 -/
instance : ErrText DecodeDataSectionError where
  chain io
    | .DecodeList e => ("failed decoding Data section") :: ErrText.chain io e

/-- src/decode/sections/data_count.rs:5-9 -/
instance : ErrText DecodeDataCountSectionError where
  chain io
    | .DecodeDataSegmentCount e => ("failed decoding Data Segment count") :: ErrText.chain io e

/-- src/decode/sections/element.rs:166-173 -/
instance : ErrText DecodeElementKindError where
  chain io
    | .Io e => ErrText.chain io e
    | .InvalidElemKind x0 => ["expected byte 0x00; got " ++ hex04 x0.toNat]

/-- src/decode/sections/element.rs:31-59 -/
instance : ErrText DecodeElementError where
  chain io
    | .DecodeBitfield _ => ["failed decoding bitfield"]
    | .InvalidBitfield x0 => ["invalid bitfield: expected value in range [0,7]; got " ++ toString x0.toNat]
    | .DecodeOffsetExpression _ => ["failed decoding offset expression"]
    | .DecodeElementKind e => ("failed decoding Element kind") :: ErrText.chain io e
    | .DecodeElementExpression _ => ["failed decoding Element expression"]
    | .DecodeTableIdx e => ErrText.chain io e
    | .DecodeReferenceType e => ErrText.chain io e
    | .DecodeInit _ => ["failed decoding table.init expressions"]
    | .DecodeFuncIdxVector e => ErrText.chain io e

/-- src/decode/sections/element.rs:15-19 -/
instance : ErrText DecodeElementSectionError where
  chain io
    | .DecodeList e => ("failed decoding Element section") :: ErrText.chain io e

/-- src/decode/sections/export.rs:50-54 -/
instance : ErrText InvalidExportDescMarkerByte where
  chain _
    | .mk x0 => ["invalid ExportDesc marker byte: expected 0x00 (func), 0x01 (table), 0x02 (mem), 0x03 (global), 0x04 (tag); got " ++ hex04 x0.toNat]

/-- src/decode/sections/export.rs:22-35 -/
instance : ErrText DecodeExportError where
  chain io
    | .DecodeName e => ErrText.chain io e
    | .ReadDescriptorMarkerByte _ => ["failed reading Export descriptor marker byte"]
    | .DecodeIndex e => ("failed reading ExportDesc index") :: ErrText.chain io e
    | .InvalidDescriptorMarkerByte e => ErrText.chain io e

/-- src/decode/sections/export.rs:10-14 -/
instance : ErrText DecodeExportSectionError where
  chain io
    | .DecodeList e => ("failed decoding Export section") :: ErrText.chain io e

/-- src/decode/sections/function.rs:7-11 -/
instance : ErrText DecodeFunctionSectionError where
  chain io
    | .DecodeList e => ("failed decoding Function section") :: ErrText.chain io e

/-- src/decode/sections/global.rs:20-27 -/
instance : ErrText DecodeGlobalError where
  chain io
    | .DecodeGlobalType e => ErrText.chain io e
    | .DecodeInit e => ("failed decoding Init") :: ErrText.chain io e

/-- src/decode/sections/global.rs:8-12 -/
instance : ErrText DecodeGlobalSectionError where
  chain io
    | .DecodeList e => ("failed decoding Global section") :: ErrText.chain io e

/-- src/decode/sections/import.rs:24-34 -/
instance : ErrText DecodeImportError where
  chain io
    | .DecodeModuleName _ => ["failed decoding module name"]
    | .DecodeItemName _ => ["failed decoding item name"]
    | .DecodeExternType e => ErrText.chain io e

/-- src/decode/sections/import.rs:8-12 -/
instance : ErrText DecodeImportSectionError where
  chain io
    | .DecodeList e => ("failed decoding Import section") :: ErrText.chain io e

/-- src/decode/sections/memory.rs:7-11 -/
instance : ErrText DecodeMemorySectionError where
  chain io
    | .DecodeList e => ("failed decoding Memory section") :: ErrText.chain io e

/-- src/decode/sections/start.rs:6-8 -/
instance : ErrText DecodeStartSectionError where
  chain io
    | .mk e => ("failed decoding Start section") :: ErrText.chain io e

/-- src/decode/sections/table.rs:25-38 -/
instance : ErrText DecodeTableError where
  chain io
    | .Io e => ErrText.chain io e
    | .UnexpectedMarkerByte x0 => ["unexpected marker byte: expected 0x00; got " ++ hex04 x0.toNat]
    | .DecodeTableType e => ErrText.chain io e
    | .DecodeExpression e => ErrText.chain io e

/-- src/decode/sections/table.rs:10-14 -/
instance : ErrText DecodeTableSectionError where
  chain io
    | .DecodeList e => ("failed decoding Table section") :: ErrText.chain io e

/-- src/decode/sections/tag.rs:7-11 -/
instance : ErrText DecodeTagSectionError where
  chain io
    | .DecodeList e => ("failed decoding Tag section") :: ErrText.chain io e

/-- src/decode/sections/type.rs:7-11 -/
instance : ErrText DecodeTypeSectionError where
  chain io
    | .DecodeList e => ("failed decoding Type section") :: ErrText.chain io e

/-- src/decode/module.rs:76-78 -/
instance : ErrText InvalidSectionIdError where
  chain _
    | .mk x0 => ["invalid section ID: expected one of " ++ markersFormatted SectionKind.debug SectionKind.markers ++ "; got " ++ hex04 x0.toNat]

/-- src/decode/module.rs:353-360 -/
instance : ErrText ParsePreambleError where
  chain io
    | .Io e => ("failed decoding preamble") :: ErrText.chain io e
    | .Unexpected x0 => ["unexpected preamble: expected " ++ hexArray EXPECTED_PREAMBLE ++ "; got " ++ hexArray x0]

/-- src/decode/module.rs:373-383 -/
instance : ErrText DecodeSectionHeaderError where
  chain io
    | .ReadSectionIdByte e => ("failed reading section ID byte") :: ErrText.chain io e
    | .InvalidSectionId e => ("invalid section ID") :: ErrText.chain io e
    | .DecodeSectionSize e => ("failed decoding section size") :: ErrText.chain io e

/-- src/decode/module.rs:121-204 -/
instance : ErrText DecodeModuleError where
  chain io
    | .ParsePreamble e => ErrText.chain io e
    | .CodeFuncEntriesLenMismatch _ _ => ["number of Code entries does not match number of Function entries"]
    | .DataCountMismatch _ _ => ["number of Data segments does not match the Data Count section"]
    | .SectionOutOfOrder x0 x1 => ["out of order section: " ++ x0.debug ++ " cannot appear after " ++ x1.debug]
    | .DuplicateSection x0 => ["encountered duplicate section: " ++ x0.debug]
    | .SectionSizeMismatch x0 x1 x2 => [x0.debug ++ " section size mismatch: declared " ++ toString x1.toNat ++ " bytes; got " ++ toString x2.toNat]
    | .DataCountDatasLenMismatch x0 x1 => ["Data Count section does not match Datas length: declared " ++ toString x1.toNat ++ "; got " ++ toString x0]
    | .DecodeDataCount => ["failed decoding Data Count section"]
    | .DataIndexWithoutDataCount => ["Data index was present in Code section, but Data Count section is missing"]
    | .DecodeSectionHeader e => ErrText.chain io e
    | .DecodeCustomSection e => ErrText.chain io e
    | .DecodeTypeSection e => ErrText.chain io e
    | .DecodeImportSection e => ErrText.chain io e
    | .DecodeFunctionSection e => ErrText.chain io e
    | .DecodeTableSection e => ErrText.chain io e
    | .DecodeMemorySection e => ErrText.chain io e
    | .DecodeGlobalSection e => ErrText.chain io e
    | .DecodeExportSection e => ErrText.chain io e
    | .DecodeStartSection e => ErrText.chain io e
    | .DecodeElementSection e => ErrText.chain io e
    | .DecodeDatacountSection e => ErrText.chain io e
    | .DecodeCodeSection e => ErrText.chain io e
    | .DecodeDataSection e => ErrText.chain io e
    | .DecodeTagSection e => ErrText.chain io e

end Wadec
