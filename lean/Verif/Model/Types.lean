import Verif.Model.Helpers

/-! Model of src/decode/types/*.rs. -/

namespace Wadec

variable {R : Type} [Read R]

/-! ### src/decode/types/heaptype.rs -/

/-- src/decode/types/heaptype.rs:46-59 `AbsHeapType_MARKERS` -/
def AbsHeapType.markers : List (UInt8 × AbsHeapType) :=
  [(0x69, .Exn), (0x6A, .Array), (0x6B, .Struct), (0x6C, .I31), (0x6D, .Eq), (0x6E, .Any),
   (0x6F, .Extern), (0x70, .Func), (0x71, .None), (0x72, .NoExtern), (0x73, .NoFunc), (0x74, .NoExn)]

/-- `u32::try_from(x).unwrap()` for an `i64` (src/decode/types/heaptype.rs:36,
src/decode/instructions.rs:1107): panics if the
value does not fit. -/
def i64ToU32 {ε : Type} (x : Int64) : Dec R ε UInt32 :=
  if 0 ≤ x.toInt ∧ x.toInt < 4294967296 then pure (UInt32.ofNat x.toInt.toNat) else Dec.panic

/-- src/decode/types/heaptype.rs:23-39 `HeapType::decode` -/
def HeapType.decode : Dec R DecodeHeapTypeError HeapType := do
  let b ← readByte.mapErr DecodeHeapTypeError.ReadMarkerByte
  match fromMarker AbsHeapType.markers b with
  | some t => pure (.Ht t)
  | none => do
    let x ← (Dec.withChain b decodeS33).mapErr DecodeHeapTypeError.DecodeTypeIndex
    if x.toInt < 0 then Dec.err (.NegativeTypeIndex x)
    else do
      let x ← i64ToU32 x
      pure (.TypeIdx x)

/-- src/decode/types/heaptype.rs:92-95 `AbsHeapType::decode` -/
def AbsHeapType.decode : Dec R DecodeAbsHeapTypeError AbsHeapType := do
  let marker ← readByte.mapErr DecodeAbsHeapTypeError.ReadMarkerByte
  match fromMarker AbsHeapType.markers marker with
  | some t => pure t
  | none => Dec.err (.InvalidMarkerByte ⟨marker⟩)

/-! ### src/decode/types/reftype.rs -/

/-- src/decode/types/reftype.rs:22-46 `RefType::decode` -/
def RefType.decode : Dec R DecodeRefTypeError RefType := do
  let marker ← readByte.mapErr DecodeRefTypeError.Io
  if marker = 0x63 then do
    let ht ← HeapType.decode.mapErr DecodeRefTypeError.DecodeHeapType
    pure ⟨true, ht⟩
  else if marker = 0x64 then do
    let ht ← HeapType.decode.mapErr DecodeRefTypeError.DecodeHeapType
    pure ⟨false, ht⟩
  else do
    let aht ← (Dec.withChain marker AbsHeapType.decode).mapErr DecodeRefTypeError.InvalidMarkerByte
    pure ⟨true, .Ht aht⟩

/-! ### src/decode/types/valtype.rs -/

/-- src/decode/types/valtype.rs:20-32 `ValType::decode` -/
def ValType.decode : Dec R DecodeValTypeError ValType := do
  let b ← readByte.mapErr DecodeValTypeError.Io
  if b = 0x7F then pure (.Num .Int32)
  else if b = 0x7E then pure (.Num .Int64)
  else if b = 0x7D then pure (.Num .Float32)
  else if b = 0x7C then pure (.Num .Float64)
  else if b = 0x7B then pure (.Vec .V128)
  else do
    let rt ← (Dec.withChain b RefType.decode).mapErr DecodeValTypeError.DecodeRefType
    pure (.Ref rt)

/-! ### src/decode/types/resulttype.rs -/

/-- src/decode/types/resulttype.rs:14-18 `decode_result_type` -/
def decodeResultType : Dec R DecodeResultTypeError (List ValType) :=
  (decodeList ValType.decode).mapErr DecodeResultTypeError.DecodeList

/-! ### src/decode/types/globaltype.rs -/

/-- src/decode/types/globaltype.rs:38-41 `Mut_MARKERS` -/
def Mut.markers : List (UInt8 × Mut) := [(0x00, .Const), (0x01, .Var)]

/-- src/decode/types/globaltype.rs:23-29 `GlobalType::decode` -/
def GlobalType.decode : Dec R DecodeGlobalTypeError GlobalType := do
  let valtype ← ValType.decode.mapErr DecodeGlobalTypeError.DecodeValueType
  let b ← readByte.mapErr DecodeGlobalTypeError.DecodeMutability
  match fromMarker Mut.markers b with
  | some m => pure ⟨m, valtype⟩
  | none => Dec.err (.InvalidMutability ⟨b⟩)

/-! ### src/decode/types/comptype.rs -/

/-- src/decode/types/comptype.rs:135-138 `PackType_MARKERS` -/
def PackType.markers : List (UInt8 × PackType) := [(0x77, .I16), (0x78, .I8)]

/-- src/decode/types/comptype.rs:104-119 `decode_storagetype` -/
def decodeStorageType : Dec R DecodeStorageTypeError StorageType := do
  let marker ← readByte.mapErr DecodeStorageTypeError.ReadMarkerByte
  match fromMarker PackType.markers marker with
  | some pt => pure (.PackType pt)
  | none => do
    let t ← (Dec.withChain marker ValType.decode).mapErr
      (fun e => DecodeStorageTypeError.DecodeValTypeOrPackType marker e)
    pure (.ValType t)

/-- src/decode/types/comptype.rs:79-87 `decode_fieldtype` -/
def decodeFieldType : Dec R DecodeFieldTypeError FieldType := do
  let zt ← decodeStorageType.mapErr DecodeFieldTypeError.DecodeStorageType
  let b ← readByte.mapErr DecodeFieldTypeError.ReadMutabilityMarkerByte
  match fromMarker Mut.markers b with
  | some m => pure ⟨m, zt⟩
  | none => Dec.err (.DecodeMutability ⟨b⟩)

/-- src/decode/types/comptype.rs:36-61 `CompType::decode` -/
def CompType.decode : Dec R DecodeCompTypeError CompType := do
  let marker ← readByte.mapErr DecodeCompTypeError.ReadMarkerByte
  if marker = 0x5E then do
    let ft ← decodeFieldType.mapErr DecodeCompTypeError.DecodeFieldType
    pure (.Array ft)
  else if marker = 0x5F then do
    let ft ← (decodeList decodeFieldType).mapErr DecodeCompTypeError.DecodeStruct
    pure (.Struct ft)
  else if marker = 0x60 then do
    let parameters ← decodeResultType.mapErr DecodeCompTypeError.DecodeFuncParameters
    let results ← decodeResultType.mapErr DecodeCompTypeError.DecodeFuncResults
    pure (.Func parameters results)
  else Dec.err (.InvalidMarkerByte marker)

/-! ### src/decode/types/rectype.rs -/

/-- src/decode/types/rectype.rs:54-81 `SubType::decode` -/
def SubType.decode : Dec R DecodeSubTypeError SubType := do
  let marker ← readByte.mapErr DecodeSubTypeError.Io
  if marker = 0x4F ∨ marker = 0x50 then do
    let x ← (decodeList TypeIdx.decode).mapErr DecodeSubTypeError.DecodeSupertypes
    let ct ← CompType.decode.mapErr DecodeSubTypeError.DecodeCompType
    pure ⟨marker == 0x4F, x, ct⟩
  else do
    let ct ← (Dec.withChain marker CompType.decode).mapErr DecodeSubTypeError.DecodeCompType
    pure ⟨true, [], ct⟩

/-- src/decode/types/rectype.rs:23-35 `RecType::decode` -/
def RecType.decode : Dec R DecodeRecTypeError RecType := do
  let marker ← readByte.mapErr DecodeRecTypeError.Io
  if marker = 0x4E then do
    let subtypes ← (decodeList SubType.decode).mapErr DecodeRecTypeError.DecodeSubtypes
    pure ⟨subtypes⟩
  else do
    let st ← (Dec.withChain marker SubType.decode).mapErr DecodeRecTypeError.DecodeSubtype
    pure ⟨[st]⟩

/-! ### src/decode/types/limits.rs, memtype.rs, tabletype.rs, tagtype.rs, externtype.rs -/

/-- src/decode/types/limits.rs:32-43: the part of `parse_limits` after the flag byte. -/
def parseLimitsRest (has_max : Bool) (address_type : AddrType) : Dec R ParseLimitsError Limits := do
  let min ← decodeU64.mapErr ParseLimitsError.ReadMinLimit
  if has_max then do
    let max ← decodeU64.mapErr ParseLimitsError.ReadMaxLimit
    pure ⟨address_type, min, some max⟩
  else pure ⟨address_type, min, none⟩

/-- src/decode/types/limits.rs:23-44 `parse_limits` -/
def parseLimits : Dec R ParseLimitsError Limits := do
  let b ← readByte.mapErr ParseLimitsError.ReadFlagByte
  if b = 0x00 then parseLimitsRest false .I32
  else if b = 0x01 then parseLimitsRest true .I32
  else if b = 0x04 then parseLimitsRest false .I64
  else if b = 0x05 then parseLimitsRest true .I64
  else Dec.err (.UnexpectedFlagByte b)

/-- src/decode/types/memtype.rs:10-15 `parse_memtype` -/
def parseMemType : Dec R DecodeMemoryTypeError MemType := do
  let limits ← parseLimits.mapErr DecodeMemoryTypeError.mk
  pure ⟨limits⟩

/-- src/decode/types/tabletype.rs:19-23 `TableType::decode` -/
def TableType.decode : Dec R DecodeTableTypeError TableType := do
  let reftype ← RefType.decode.mapErr DecodeTableTypeError.DecodeRefType
  let limits ← parseLimits.mapErr DecodeTableTypeError.DecodeLimits
  pure ⟨reftype, limits⟩

/-- src/decode/types/tagtype.rs:26-33 `TagType::decode` -/
def TagType.decode : Dec R DecodeTagTypeError TagType := do
  let b ← readByte.mapErr DecodeTagTypeError.ReadMarkerByte
  if b ≠ 0x00 then Dec.err (.InvalidMarkerByte b)
  else do
    let x ← TypeIdx.decode.mapErr DecodeTagTypeError.DecodeTypeIndex
    pure ⟨x⟩

/-- src/decode/types/externtype.rs:43-53 `ExternType::decode` -/
def ExternType.decode : Dec R DecodeExternTypeError ExternType := do
  let marker ← readByte.mapErr DecodeExternTypeError.ReadMarkerByte
  if marker = 0x00 then do
    let x ← TypeIdx.decode.mapErr DecodeExternTypeError.DecodeTypeIndex
    pure (.Func x)
  else if marker = 0x01 then do
    let t ← TableType.decode.mapErr DecodeExternTypeError.DecodeTableType
    pure (.Table t)
  else if marker = 0x02 then do
    let t ← parseMemType.mapErr DecodeExternTypeError.DecodeMemoryType
    pure (.Mem t)
  else if marker = 0x03 then do
    let t ← GlobalType.decode.mapErr DecodeExternTypeError.DecodeGlobalType
    pure (.Global t)
  else if marker = 0x04 then do
    let t ← TagType.decode.mapErr DecodeExternTypeError.DecodeTagType
    pure (.Tag t)
  else Dec.err (.InvalidMarkerByte marker)

end Wadec
