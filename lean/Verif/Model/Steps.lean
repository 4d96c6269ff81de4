import Verif.Model.StepsBase

/-! The decoding functions, counting steps.  Generated by tools/gen_steps.py from Verif/Model/{Integer,Helpers,Types,Instructions,
Sections,Module}.lean: the same text in the monad of Verif/Model/StepsBase.lean, with a step for every call and every iteration.
`push` is the price of pushing one local (src/decode/module.rs:275). -/

namespace Wadec.Counted

variable {R : Type} [Read R] {ε α σ : Type}

/-! ### Model/Integer.lean -/

/-- src/decode/integer.rs:25-47: body of the loop of `decode_u32`; `i` is the loop variable; counting steps -/
def decodeU32Loop : Nat → Nat → BitVec 32 → Nat → Dec R DecodeU32Error UInt32
  | 0, _, _, _ => Dec.step <| Dec.err .RepresentationTooLong
  | rem + 1, i, result, shift => Dec.step <| do
    let byte ← readByte.mapErr DecodeU32Error.Io
    if 32 ≤ shift then Dec.panic else
      let result := result ||| ((byte &&& 0x7F).toBitVec.setWidth 32 <<< shift)
      if byte &&& 0x80 = 0 then
        if i = 5 ∧ byte &&& 0xF0 ≠ 0 then Dec.err .TooLarge
        else pure (UInt32.ofBitVec result)
      else if 255 < shift + 7 then Dec.panic
      else decodeU32Loop rem (i + 1) result (shift + 7)

/-- src/decode/integer.rs:20-50 `decode_u32`; counting steps -/
def decodeU32 : Dec R DecodeU32Error UInt32 := Dec.step <| decodeU32Loop 5 1 0 0

/-- src/decode/integer.rs:69-91: body of the loop of `decode_u64`; counting steps -/
def decodeU64Loop : Nat → Nat → BitVec 64 → Nat → Dec R DecodeU64Error UInt64
  | 0, _, _, _ => Dec.step <| Dec.err .RepresentationTooLong
  | rem + 1, i, result, shift => Dec.step <| do
    let byte ← readByte.mapErr DecodeU64Error.Io
    if 64 ≤ shift then Dec.panic else
      let result := result ||| ((byte &&& 0x7F).toBitVec.setWidth 64 <<< shift)
      if byte &&& 0x80 = 0 then
        if i = 10 ∧ byte &&& 0x7E ≠ 0 then Dec.err .TooLarge
        else pure (UInt64.ofBitVec result)
      else if 255 < shift + 7 then Dec.panic
      else decodeU64Loop rem (i + 1) result (shift + 7)

/-- src/decode/integer.rs:64-94 `decode_u64`; counting steps -/
def decodeU64 : Dec R DecodeU64Error UInt64 := Dec.step <| decodeU64Loop 10 1 0 0

/-- src/decode/integer.rs:116-134: body of the loop of `decode_i32`.  `i32::try_from(result)`
fails (and `unwrap` panics) exactly if the value is outside the range of `i32`; counting steps -/
def decodeI32Loop : Nat → BitVec 64 → Nat → Dec R DecodeI32Error Int32
  | 0, _, _ => Dec.step <| Dec.err .RepresentationTooLong
  | rem + 1, result, shift => Dec.step <| do
    let byte ← readByte.mapErr DecodeI32Error.Io
    if 64 ≤ shift then Dec.panic else
      let result := result ||| ((byte &&& 0x7F).toBitVec.setWidth 64 <<< shift)
      if 255 < shift + 7 then Dec.panic else
        let shift := shift + 7
        if byte &&& 0x80 = 0 then
          if byte &&& 0x40 ≠ 0 ∧ 64 ≤ shift then Dec.panic else
            let result := if byte &&& 0x40 ≠ 0 then
              result ||| (BitVec.allOnes 64 <<< shift) else result
            if ¬ (-2147483648 ≤ result.toInt ∧ result.toInt ≤ 2147483647) then Dec.err .TooLarge
            else if -2147483648 ≤ result.toInt ∧ result.toInt ≤ 2147483647 then
              pure (Int32.ofInt result.toInt)
            else Dec.panic
        else decodeI32Loop rem result shift

/-- src/decode/integer.rs:108-137 `decode_i32`; counting steps -/
def decodeI32 : Dec R DecodeI32Error Int32 := Dec.step <| decodeI32Loop 5 0 0

/-- src/decode/integer.rs:156-185: body of the loop of `decode_i64`; counting steps -/
def decodeI64Loop : Nat → BitVec 64 → Nat → Dec R DecodeI64Error Int64
  | 0, _, _ => Dec.step <| Dec.err .RepresentationTooLong
  | rem + 1, result, shift => Dec.step <| do
    let byte ← readByte.mapErr DecodeI64Error.Io
    if 64 ≤ shift then Dec.panic else
      let result := result ||| ((byte &&& 0x7F).toBitVec.setWidth 64 <<< shift)
      if 255 < shift + 7 then Dec.panic else
        let shift := shift + 7
        if byte &&& 0x80 = 0 then
          if 64 ≤ shift then
            if byte &&& 0x40 ≠ 0 ∧ byte &&& 0x3F ≠ 0x3F then Dec.err .IncorrectSignExtension
            else if ¬ byte &&& 0x40 ≠ 0 ∧ byte &&& 0x3F ≠ 0x00 then Dec.err .IncorrectSignExtension
            else pure (Int64.ofBitVec result)
          else if byte &&& 0x40 ≠ 0 then
            pure (Int64.ofBitVec (result ||| (BitVec.allOnes 64 <<< shift)))
          else pure (Int64.ofBitVec result)
        else decodeI64Loop rem result shift

/-- src/decode/integer.rs:151-188 `decode_i64`; counting steps -/
def decodeI64 : Dec R DecodeI64Error Int64 := Dec.step <| decodeI64Loop 10 0 0

/-- src/decode/integer.rs:207-238: body of the loop of `decode_s33`; counting steps -/
def decodeS33Loop : Nat → BitVec 64 → Nat → Dec R DecodeS33Error Int64
  | 0, _, _ => Dec.step <| Dec.err .RepresentationTooLong
  | rem + 1, result, shift => Dec.step <| do
    let byte ← readByte.mapErr DecodeS33Error.Io
    if 64 ≤ shift then Dec.panic else
      let result := result ||| ((byte &&& 0x7F).toBitVec.setWidth 64 <<< shift)
      if 255 < shift + 7 then Dec.panic else
        let shift := shift + 7
        if byte &&& 0x80 = 0 then
          if 33 ≤ shift ∧ byte &&& 0x40 ≠ 0 ∧ byte &&& 0x70 ≠ 0x70 then
            Dec.err .IncorrectSignExtension
          else if 33 ≤ shift ∧ ¬ byte &&& 0x40 ≠ 0 ∧ byte &&& 0x70 ≠ 0x00 then
            Dec.err .IncorrectSignExtension
          else if byte &&& 0x40 ≠ 0 then
            if 64 ≤ shift then Dec.panic
            else pure (Int64.ofBitVec (result ||| (BitVec.allOnes 64 <<< shift)))
          else pure (Int64.ofBitVec result)
        else decodeS33Loop rem result shift

/-- src/decode/integer.rs:202-241 `decode_s33`; counting steps -/
def decodeS33 : Dec R DecodeS33Error Int64 := Dec.step <| decodeS33Loop 5 0 0

/-! ### Model/Helpers.lean -/

/-- src/decode/indices.rs:18-22, 26; counting steps -/
def TypeIdx.decode : Dec R DecodeTypeIdxError TypeIdx := Dec.step <| do
  let idx ← decodeU32.mapErr DecodeTypeIdxError.mk; pure ⟨idx⟩

/-- src/decode/indices.rs:18-22, 27; counting steps -/
def FuncIdx.decode : Dec R DecodeFuncIdxError FuncIdx := Dec.step <| do
  let idx ← decodeU32.mapErr DecodeFuncIdxError.mk; pure ⟨idx⟩

/-- src/decode/indices.rs:18-22, 28; counting steps -/
def TableIdx.decode : Dec R DecodeTableIdxError TableIdx := Dec.step <| do
  let idx ← decodeU32.mapErr DecodeTableIdxError.mk; pure ⟨idx⟩

/-- src/decode/indices.rs:18-22, 29; counting steps -/
def MemIdx.decode : Dec R DecodeMemIdxError MemIdx := Dec.step <| do
  let idx ← decodeU32.mapErr DecodeMemIdxError.mk; pure ⟨idx⟩

/-- src/decode/indices.rs:18-22, 30; counting steps -/
def GlobalIdx.decode : Dec R DecodeGlobalIdxError GlobalIdx := Dec.step <| do
  let idx ← decodeU32.mapErr DecodeGlobalIdxError.mk; pure ⟨idx⟩

/-- src/decode/indices.rs:18-22, 31; counting steps -/
def ElemIdx.decode : Dec R DecodeElemIdxError ElemIdx := Dec.step <| do
  let idx ← decodeU32.mapErr DecodeElemIdxError.mk; pure ⟨idx⟩

/-- src/decode/indices.rs:18-22, 32; counting steps -/
def DataIdx.decode : Dec R DecodeDataIdxError DataIdx := Dec.step <| do
  let idx ← decodeU32.mapErr DecodeDataIdxError.mk; pure ⟨idx⟩

/-- src/decode/indices.rs:18-22, 33; counting steps -/
def LocalIdx.decode : Dec R DecodeLocalIdxError LocalIdx := Dec.step <| do
  let idx ← decodeU32.mapErr DecodeLocalIdxError.mk; pure ⟨idx⟩

/-- src/decode/indices.rs:18-22, 34; counting steps -/
def LabelIdx.decode : Dec R DecodeLabelIdxError LabelIdx := Dec.step <| do
  let idx ← decodeU32.mapErr DecodeLabelIdxError.mk; pure ⟨idx⟩

/-- src/decode/indices.rs:18-22, 35; counting steps -/
def TagIdx.decode : Dec R DecodeTagIdxError TagIdx := Dec.step <| do
  let idx ← decodeU32.mapErr DecodeTagIdxError.mk; pure ⟨idx⟩

/-- src/decode/helpers.rs:74-78 `decode_f32`, on bit patterns; counting steps -/
def decodeF32 : Dec R DecodeFloat32Error UInt32 := Dec.step <| do
  let buf ← (readExact 4).mapErr DecodeFloat32Error.ReadPayload
  pure (UInt32.ofNat (leNat buf))

/-- src/decode/helpers.rs:86-90 `decode_f64`, on bit patterns; counting steps -/
def decodeF64 : Dec R DecodeFloat64Error UInt64 := Dec.step <| do
  let buf ← (readExact 8).mapErr DecodeFloat64Error.ReadPayload
  pure (UInt64.ofNat (leNat buf))

/-- The loop `for i in 0..len` of `decode_list` (src/decode/helpers.rs:112-118).  `parse_fn` is an
`FnMut` closure; `σ` is the state it captures.  Arguments: elements left, position, state,
elements so far; counting steps -/
def decodeListLoop (parse_fn : σ → Dec R ε (α × σ)) :
    Nat → UInt32 → σ → List α → Dec R (DecodeListError ε) (List α × σ)
  | 0, _, st, items => Dec.step <| pure (items, st)
  | n + 1, i, st, items => Dec.step <| do
    let (elem, st') ← (parse_fn st).mapErr (fun err => DecodeListError.ParseElement i err)
    decodeListLoop parse_fn n (i + 1) st' (items ++ [elem])

/-- src/decode/helpers.rs:101-121 `decode_list`, with the state of the closure explicit.  The
capacity of the vector is requested before the first element is read; `len.try_into().unwrap()`
does not fail (usize has at least 32 bits); counting steps -/
def decodeListS (parse_fn : σ → Dec R ε (α × σ)) (st : σ) :
    Dec R (DecodeListError ε) (List α × σ) := Dec.step <| do
  let len ← decodeU32.mapErr DecodeListError.DecodeLength
  Dec.reserve len.toNat
  decodeListLoop parse_fn len.toNat 0 st []

/-- src/decode/helpers.rs:101-121 `decode_list` with a stateless element decoder; counting steps -/
def decodeList (parse_fn : Dec R ε α) : Dec R (DecodeListError ε) (List α) := Dec.step <| do
  let (items, _) ← decodeListS (fun (_ : Unit) => do let x ← parse_fn; pure (x, ())) ()
  pure items

/-- src/decode/helpers.rs:156-163 `decode_byte_vector`; counting steps -/
def decodeByteVector : Dec R DecodeByteVectorError (List UInt8) := Dec.step <| do
  let len ← decodeU32.mapErr DecodeByteVectorError.DecodeLength
  Dec.reserve len.toNat
  (readExact len.toNat).mapErr DecodeByteVectorError.ReadElements

/-- src/decode/helpers.rs:174-176 `decode_name`: `Vec<u8>::try_into::<String>()` is
`String::from_utf8`; counting steps -/
def decodeName : Dec R DecodeNameError Str := Dec.step <| do
  let bytes ← decodeByteVector.mapErr DecodeNameError.DecodeByteVector
  Dec.charge bytes.length                            -- `from_utf8` looks at every byte
  match utf8Check 0 bytes with
  | none => pure ⟨bytes⟩
  | some (valid_up_to, error_len) => Dec.err (.Utf8 ⟨bytes, valid_up_to, error_len⟩)

/-! ### Model/Types.lean -/

/-- `u32::try_from(x).unwrap()` for an `i64` (src/decode/types/heaptype.rs:36,
src/decode/instructions.rs:1107): panics if the
value does not fit; counting steps -/
def i64ToU32 {ε : Type} (x : Int64) : Dec R ε UInt32 := Dec.step <|
  if 0 ≤ x.toInt ∧ x.toInt < 4294967296 then pure (UInt32.ofNat x.toInt.toNat) else Dec.panic

/-- src/decode/types/heaptype.rs:23-39 `HeapType::decode`; counting steps -/
def HeapType.decode : Dec R DecodeHeapTypeError HeapType := Dec.step <| do
  let b ← readByte.mapErr DecodeHeapTypeError.ReadMarkerByte
  match fromMarker AbsHeapType.markers b with
  | some t => pure (.Ht t)
  | none => do
    let x ← (Dec.withChain b decodeS33).mapErr DecodeHeapTypeError.DecodeTypeIndex
    if x.toInt < 0 then Dec.err (.NegativeTypeIndex x)
    else do
      let x ← i64ToU32 x
      pure (.TypeIdx x)

/-- src/decode/types/heaptype.rs:92-95 `AbsHeapType::decode`; counting steps -/
def AbsHeapType.decode : Dec R DecodeAbsHeapTypeError AbsHeapType := Dec.step <| do
  let marker ← readByte.mapErr DecodeAbsHeapTypeError.ReadMarkerByte
  match fromMarker AbsHeapType.markers marker with
  | some t => pure t
  | none => Dec.err (.InvalidMarkerByte ⟨marker⟩)

/-- src/decode/types/reftype.rs:22-46 `RefType::decode`; counting steps -/
def RefType.decode : Dec R DecodeRefTypeError RefType := Dec.step <| do
  let marker ← readByte.mapErr DecodeRefTypeError.Io
  if marker = 0x63 then do
    let ht ← HeapType.decode.mapErr DecodeRefTypeError.DecodeHeapType
    pure ⟨true, ht⟩
  else if marker = 0x64 then do
    let ht ← HeapType.decode.mapErr DecodeRefTypeError.DecodeHeapType
    pure ⟨false, ht⟩
  else do
    let aht ← (Dec.withChain marker AbsHeapType.decode).mapErr DecodeRefTypeError.InvalidMarkerByte
    pure ⟨true, .Ht aht⟩

/-- src/decode/types/valtype.rs:20-32 `ValType::decode`; counting steps -/
def ValType.decode : Dec R DecodeValTypeError ValType := Dec.step <| do
  let b ← readByte.mapErr DecodeValTypeError.Io
  if b = 0x7F then pure (.Num .Int32)
  else if b = 0x7E then pure (.Num .Int64)
  else if b = 0x7D then pure (.Num .Float32)
  else if b = 0x7C then pure (.Num .Float64)
  else if b = 0x7B then pure (.Vec .V128)
  else do
    let rt ← (Dec.withChain b RefType.decode).mapErr DecodeValTypeError.DecodeRefType
    pure (.Ref rt)

/-- src/decode/types/resulttype.rs:14-18 `decode_result_type`; counting steps -/
def decodeResultType : Dec R DecodeResultTypeError (List ValType) := Dec.step <|
  (decodeList ValType.decode).mapErr DecodeResultTypeError.DecodeList

/-- src/decode/types/globaltype.rs:23-29 `GlobalType::decode`; counting steps -/
def GlobalType.decode : Dec R DecodeGlobalTypeError GlobalType := Dec.step <| do
  let valtype ← ValType.decode.mapErr DecodeGlobalTypeError.DecodeValueType
  let b ← readByte.mapErr DecodeGlobalTypeError.DecodeMutability
  match fromMarker Mut.markers b with
  | some m => pure ⟨m, valtype⟩
  | none => Dec.err (.InvalidMutability ⟨b⟩)

/-- src/decode/types/comptype.rs:104-119 `decode_storagetype`; counting steps -/
def decodeStorageType : Dec R DecodeStorageTypeError StorageType := Dec.step <| do
  let marker ← readByte.mapErr DecodeStorageTypeError.ReadMarkerByte
  match fromMarker PackType.markers marker with
  | some pt => pure (.PackType pt)
  | none => do
    let t ← (Dec.withChain marker ValType.decode).mapErr
      (fun e => DecodeStorageTypeError.DecodeValTypeOrPackType marker e)
    pure (.ValType t)

/-- src/decode/types/comptype.rs:79-87 `decode_fieldtype`; counting steps -/
def decodeFieldType : Dec R DecodeFieldTypeError FieldType := Dec.step <| do
  let zt ← decodeStorageType.mapErr DecodeFieldTypeError.DecodeStorageType
  let b ← readByte.mapErr DecodeFieldTypeError.ReadMutabilityMarkerByte
  match fromMarker Mut.markers b with
  | some m => pure ⟨m, zt⟩
  | none => Dec.err (.DecodeMutability ⟨b⟩)

/-- src/decode/types/comptype.rs:36-61 `CompType::decode`; counting steps -/
def CompType.decode : Dec R DecodeCompTypeError CompType := Dec.step <| do
  let marker ← readByte.mapErr DecodeCompTypeError.ReadMarkerByte
  if marker = 0x5E then do
    let ft ← decodeFieldType.mapErr DecodeCompTypeError.DecodeFieldType
    pure (.Array ft)
  else if marker = 0x5F then do
    let ft ← (decodeList decodeFieldType).mapErr DecodeCompTypeError.DecodeStruct
    pure (.Struct ft)
  else if marker = 0x60 then do
    let parameters ← decodeResultType.mapErr DecodeCompTypeError.DecodeFuncParameters
    let results ← decodeResultType.mapErr DecodeCompTypeError.DecodeFuncResults
    pure (.Func parameters results)
  else Dec.err (.InvalidMarkerByte marker)

/-- src/decode/types/rectype.rs:54-81 `SubType::decode`; counting steps -/
def SubType.decode : Dec R DecodeSubTypeError SubType := Dec.step <| do
  let marker ← readByte.mapErr DecodeSubTypeError.Io
  if marker = 0x4F ∨ marker = 0x50 then do
    let x ← (decodeList TypeIdx.decode).mapErr DecodeSubTypeError.DecodeSupertypes
    let ct ← CompType.decode.mapErr DecodeSubTypeError.DecodeCompType
    pure ⟨marker == 0x4F, x, ct⟩
  else do
    let ct ← (Dec.withChain marker CompType.decode).mapErr DecodeSubTypeError.DecodeCompType
    pure ⟨true, [], ct⟩

/-- src/decode/types/rectype.rs:23-35 `RecType::decode`; counting steps -/
def RecType.decode : Dec R DecodeRecTypeError RecType := Dec.step <| do
  let marker ← readByte.mapErr DecodeRecTypeError.Io
  if marker = 0x4E then do
    let subtypes ← (decodeList SubType.decode).mapErr DecodeRecTypeError.DecodeSubtypes
    pure ⟨subtypes⟩
  else do
    let st ← (Dec.withChain marker SubType.decode).mapErr DecodeRecTypeError.DecodeSubtype
    pure ⟨[st]⟩

/-- src/decode/types/limits.rs:32-43: the part of `parse_limits` after the flag byte; counting steps -/
def parseLimitsRest (has_max : Bool) (address_type : AddrType) : Dec R ParseLimitsError Limits := Dec.step <| do
  let min ← decodeU64.mapErr ParseLimitsError.ReadMinLimit
  if has_max then do
    let max ← decodeU64.mapErr ParseLimitsError.ReadMaxLimit
    pure ⟨address_type, min, some max⟩
  else pure ⟨address_type, min, none⟩

/-- src/decode/types/limits.rs:23-44 `parse_limits`; counting steps -/
def parseLimits : Dec R ParseLimitsError Limits := Dec.step <| do
  let b ← readByte.mapErr ParseLimitsError.ReadFlagByte
  if b = 0x00 then parseLimitsRest false .I32
  else if b = 0x01 then parseLimitsRest true .I32
  else if b = 0x04 then parseLimitsRest false .I64
  else if b = 0x05 then parseLimitsRest true .I64
  else Dec.err (.UnexpectedFlagByte b)

/-- src/decode/types/memtype.rs:10-15 `parse_memtype`; counting steps -/
def parseMemType : Dec R DecodeMemoryTypeError MemType := Dec.step <| do
  let limits ← parseLimits.mapErr DecodeMemoryTypeError.mk
  pure ⟨limits⟩

/-- src/decode/types/tabletype.rs:19-23 `TableType::decode`; counting steps -/
def TableType.decode : Dec R DecodeTableTypeError TableType := Dec.step <| do
  let reftype ← RefType.decode.mapErr DecodeTableTypeError.DecodeRefType
  let limits ← parseLimits.mapErr DecodeTableTypeError.DecodeLimits
  pure ⟨reftype, limits⟩

/-- src/decode/types/tagtype.rs:26-33 `TagType::decode`; counting steps -/
def TagType.decode : Dec R DecodeTagTypeError TagType := Dec.step <| do
  let b ← readByte.mapErr DecodeTagTypeError.ReadMarkerByte
  if b ≠ 0x00 then Dec.err (.InvalidMarkerByte b)
  else do
    let x ← TypeIdx.decode.mapErr DecodeTagTypeError.DecodeTypeIndex
    pure ⟨x⟩

/-- src/decode/types/externtype.rs:43-53 `ExternType::decode`; counting steps -/
def ExternType.decode : Dec R DecodeExternTypeError ExternType := Dec.step <| do
  let marker ← readByte.mapErr DecodeExternTypeError.ReadMarkerByte
  if marker = 0x00 then do
    let x ← TypeIdx.decode.mapErr DecodeExternTypeError.DecodeTypeIndex
    pure (.Func x)
  else if marker = 0x01 then do
    let t ← TableType.decode.mapErr DecodeExternTypeError.DecodeTableType
    pure (.Table t)
  else if marker = 0x02 then do
    let t ← parseMemType.mapErr DecodeExternTypeError.DecodeMemoryType
    pure (.Mem t)
  else if marker = 0x03 then do
    let t ← GlobalType.decode.mapErr DecodeExternTypeError.DecodeGlobalType
    pure (.Global t)
  else if marker = 0x04 then do
    let t ← TagType.decode.mapErr DecodeExternTypeError.DecodeTagType
    pure (.Tag t)
  else Dec.err (.InvalidMarkerByte marker)

/-! ### Model/Instructions.lean -/

/-- src/decode/instructions.rs:1037-1055 `Memarg::decode`; counting steps -/
def Memarg.decode : Dec R MemargError Memarg := Dec.step <| do
  let n ← decodeU32.mapErr MemargError.Align
  if n < 64 then do
    let offset ← decodeU64.mapErr MemargError.Offset
    pure ⟨⟨0⟩, n, offset⟩
  else if n < 128 then do
    let mem_idx ← MemIdx.decode.mapErr MemargError.MemIdx
    let offset ← decodeU64.mapErr MemargError.Offset
    pure ⟨mem_idx, n - 64, offset⟩
  else Dec.err (.InvalidFlagsBit n)

/-- src/decode/instructions.rs:1067-1069 `LaneIdx::decode`; counting steps -/
def LaneIdx.decode : Dec R LaneIdxError LaneIdx := Dec.step <| do
  let b ← readByte.mapErr LaneIdxError.mk
  pure ⟨b⟩

/-- src/decode/instructions.rs:1101-1109, the type index of a block type; counting steps -/
def blockTypeIndex : Dec R BlockTypeError BlockType := Dec.step <| do
  let x ← decodeS33.mapErr BlockTypeError.DecodeIndex
  if x.toInt < 0 then Dec.err (.NegativeTypeIndex x)
  else do
    let x ← i64ToU32 x
    pure (.I x)

/-- src/decode/instructions.rs:1085-1110 `BlockType::decode`: any failure of `ValType::decode` is
discarded, and the index is read from `b` followed by whatever `ValType::decode` left; counting steps -/
def BlockType.decode : Dec R BlockTypeError BlockType := Dec.step <| do
  let b ← readByte.mapErr BlockTypeError.ReadMarkerByte
  if b = 0x40 then pure .Empty
  else Dec.withChain b (Dec.orElseDiscard ValType.decode .T (Dec.withChain b blockTypeIndex))

/-- src/decode/instructions.rs:1129-1147 `Catch::decode`; counting steps -/
def Catch.decode : Dec R CatchError Wadec.Catch := Dec.step <| do
  let marker ← readByte.mapErr CatchError.ReadMarkerByte
  if marker = 0x00 then do
    let x ← TagIdx.decode.mapErr CatchError.DecodeTagIdx
    let l ← LabelIdx.decode.mapErr CatchError.DecodeLabelIdx
    pure (.Catch x l)
  else if marker = 0x01 then do
    let x ← TagIdx.decode.mapErr CatchError.DecodeTagIdx
    let l ← LabelIdx.decode.mapErr CatchError.DecodeLabelIdx
    pure (.CatchRef x l)
  else if marker = 0x02 then do
    let l ← LabelIdx.decode.mapErr CatchError.DecodeLabelIdx
    pure (.CatchAll l)
  else if marker = 0x03 then do
    let l ← LabelIdx.decode.mapErr CatchError.DecodeLabelIdx
    pure (.CatchAllRef l)
  else Dec.err (.InvalidMarkerByte marker)

/-- src/decode/instructions.rs:1150-1158 `decode_castop`; counting steps -/
def decodeCastop : Dec R ControlError (Bool × Bool) := Dec.step <| do
  let n ← readByte.mapErr ControlError.ReadCastNullabilityMarker
  if n = 0x00 then pure (false, false)
  else if n = 0x01 then pure (true, false)
  else if n = 0x02 then pure (false, true)
  else if n = 0x03 then pure (true, true)
  else Dec.err (.InvalidCastNullabilityMarker n)

/-- src/decode/instructions.rs:336-409: `TypeIdx::decode(reader).map_err(AggregateError::TypeIdx)?`; counting steps -/
def aggType : Dec R ParseError TypeIdx := Dec.step <|
  TypeIdx.decode.mapErr (fun e => .Aggregate (.TypeIdx e))

/-- src/decode/instructions.rs:343-358: `decode_u32(reader).map_err(AggregateError::FieldIndex)?`; counting steps -/
def aggField : Dec R ParseError UInt32 := Dec.step <|
  decodeU32.mapErr (fun e => .Aggregate (.FieldIndex e))

/-- src/decode/instructions.rs:369: `decode_u32(reader).map_err(AggregateError::ArrayFixedLength)?`; counting steps -/
def aggLen : Dec R ParseError UInt32 := Dec.step <|
  decodeU32.mapErr (fun e => .Aggregate (.ArrayFixedLength e))

/-- src/decode/instructions.rs:374, 405: `DataIdx::decode(reader).map_err(AggregateError::DataIdx)?`; counting steps -/
def aggData : Dec R ParseError DataIdx := Dec.step <|
  DataIdx.decode.mapErr (fun e => .Aggregate (.DataIdx e))

/-- src/decode/instructions.rs:379, 410: `ElemIdx::decode(reader).map_err(AggregateError::ElemIdx)?`; counting steps -/
def aggElem : Dec R ParseError ElemIdx := Dec.step <|
  ElemIdx.decode.mapErr (fun e => .Aggregate (.ElemIdx e))

/-- src/decode/instructions.rs:323, 421: `HeapType::decode(reader).map_err(ReferenceError::HeapType)?`; counting steps -/
def refHeap : Dec R ParseError HeapType := Dec.step <|
  HeapType.decode.mapErr (fun e => .Reference (.HeapType e))

/-- src/decode/instructions.rs:441-442: `HeapType::decode(reader).map_err(ControlError::HeapType)?`; counting steps -/
def ctlHeap : Dec R ParseError HeapType := Dec.step <|
  HeapType.decode.mapErr (fun e => .Control (.HeapType e))

/-- src/decode/instructions.rs:267-272, 313, 316, 440: `LabelIdx::decode(reader).map_err(ControlError::LabelIdx)?`; counting steps -/
def ctlLabel : Dec R ParseError LabelIdx := Dec.step <|
  LabelIdx.decode.mapErr (fun e => .Control (.LabelIdx e))

/-- src/decode/instructions.rs:276, 283: `FuncIdx::decode(reader).map_err(ControlError::FuncIdx)?`; counting steps -/
def ctlFunc : Dec R ParseError FuncIdx := Dec.step <|
  FuncIdx.decode.mapErr (fun e => .Control (.FuncIdx e))

/-- src/decode/instructions.rs:278, 286, 290, 292: `TypeIdx::decode(reader).map_err(ControlError::TypeIdx)?`; counting steps -/
def ctlType : Dec R ParseError TypeIdx := Dec.step <|
  TypeIdx.decode.mapErr (fun e => .Control (.TypeIdx e))

/-- src/decode/instructions.rs:279, 287: `TableIdx::decode(reader).map_err(ControlError::TableIdx)?`; counting steps -/
def ctlTable : Dec R ParseError TableIdx := Dec.step <|
  TableIdx.decode.mapErr (fun e => .Control (.TableIdx e))

/-- src/decode/instructions.rs:481-482, 690-705: `TableIdx::decode(reader).map_err(TableError::TableIdx)?`; counting steps -/
def tabTable : Dec R ParseError TableIdx := Dec.step <|
  TableIdx.decode.mapErr (fun e => .Table (.TableIdx e))

/-- src/decode/instructions.rs:689, 693: `ElemIdx::decode(reader).map_err(TableError::ElemIdx)?`; counting steps -/
def tabElem : Dec R ParseError ElemIdx := Dec.step <|
  ElemIdx.decode.mapErr (fun e => .Table (.ElemIdx e))

/-- src/decode/instructions.rs:515, 519, 671-683: `MemIdx::decode(reader).map_err(MemoryError::DecodeMemIdx)?`; counting steps -/
def memMem : Dec R ParseError MemIdx := Dec.step <|
  MemIdx.decode.mapErr (fun e => .Memory (.DecodeMemIdx e))

/-- src/decode/instructions.rs:670, 675: `DataIdx::decode(reader).map_err(MemoryError::DecodeDataIdx)?`; counting steps -/
def memData : Dec R ParseError DataIdx := Dec.step <|
  DataIdx.decode.mapErr (fun e => .Memory (.DecodeDataIdx e))

/-- src/decode/instructions.rs:465-471: `LocalIdx::decode(reader).map_err(VariableError::LocalIdx)?`; counting steps -/
def varLocal : Dec R ParseError LocalIdx := Dec.step <|
  LocalIdx.decode.mapErr (fun e => .Variable (.LocalIdx e))

/-- src/decode/instructions.rs:474, 477: `GlobalIdx::decode(reader).map_err(VariableError::GlobalIdx)?`; counting steps -/
def varGlobal : Dec R ParseError GlobalIdx := Dec.step <|
  GlobalIdx.decode.mapErr (fun e => .Variable (.GlobalIdx e))

/-- src/decode/instructions.rs:715, 735: `Memarg::decode(reader).map_err(VectorError::Memarg)?`; counting steps -/
def vecMemarg : Dec R ParseError Memarg := Dec.step <|
  Memarg.decode.mapErr (fun e => .Vector (.Memarg e))

/-- src/decode/instructions.rs:736, 764: `LaneIdx::decode(reader).map_err(VectorError::LaneIdx)?`; counting steps -/
def vecLane : Dec R ParseError LaneIdx := Dec.step <|
  LaneIdx.decode.mapErr (fun e => .Vector (.LaneIdx e))

/-- src/decode/instructions.rs:752-753, 759-760: `reader.read_exact(&mut buf).map_err(VectorError::ReadImmediateBytes)?` with
`buf: [u8; 16]`; counting steps -/
def vecBytes : Dec R ParseError Bytes16 := Dec.step <| do
  let buf ← (readExact 16).mapErr (fun e => ParseError.Vector (.ReadImmediateBytes e))
  if h : buf.length = 16 then pure ⟨buf, h⟩ else Dec.panic

/-- src/decode/instructions.rs:331-461: the `match op` after the prefix 0xFB; counting steps -/
def parseFB (op : UInt32) : Dec R ParseError Instr := Dec.step <|
  if op = 0 then do let t ← aggType; pure (.StructNew t)
  else if op = 1 then do let t ← aggType; pure (.StructNewDefault t)
  else if op = 2 then do let t ← aggType; let f ← aggField; pure (.StructGet t f)
  else if op = 3 then do let t ← aggType; let f ← aggField; pure (.StructGetS t f)
  else if op = 4 then do let t ← aggType; let f ← aggField; pure (.StructGetU t f)
  else if op = 5 then do let t ← aggType; let f ← aggField; pure (.StructSet t f)
  else if op = 6 then do let t ← aggType; pure (.ArrayNew t)
  else if op = 7 then do let t ← aggType; pure (.ArrayNewDefault t)
  else if op = 8 then do let t ← aggType; let n ← aggLen; pure (.ArrayNewFixed t n)
  else if op = 9 then do let t ← aggType; let d ← aggData; pure (.ArrayNewData t d)
  else if op = 10 then do let t ← aggType; let e ← aggElem; pure (.ArrayNewElem t e)
  else if op = 11 then do let t ← aggType; pure (.ArrayGet t)
  else if op = 12 then do let t ← aggType; pure (.ArrayGetS t)
  else if op = 13 then do let t ← aggType; pure (.ArrayGetU t)
  else if op = 14 then do let t ← aggType; pure (.ArraySet t)
  else if op = 16 then do let t ← aggType; pure (.ArrayFill t)
  else if op = 17 then do let dst ← aggType; let src ← aggType; pure (.ArrayCopy dst src)
  else if op = 18 then do let t ← aggType; let d ← aggData; pure (.ArrayInitData t d)
  else if op = 19 then do let t ← aggType; let e ← aggElem; pure (.ArrayInitElem t e)
  else if 20 ≤ op ∧ op ≤ 23 then do
    let ht ← refHeap
    if op = 20 then pure (.RefTest ⟨false, ht⟩)
    else if op = 21 then pure (.RefTest ⟨true, ht⟩)
    else if op = 22 then pure (.RefCast ⟨false, ht⟩)
    else if op = 23 then pure (.RefCast ⟨true, ht⟩)
    else Dec.panic                                   -- `unreachable!()`
  else if op = 24 ∨ op = 25 then do
    let (nullable1, nullable2) ← decodeCastop.mapErr ParseError.Control
    let l ← ctlLabel
    let ht1 ← ctlHeap
    let ht2 ← ctlHeap
    if op = 24 then pure (.BrOnCast l ⟨nullable1, ht1⟩ ⟨nullable2, ht2⟩)
    else pure (.BrOnCastFail l ⟨nullable1, ht1⟩ ⟨nullable2, ht2⟩)
  else
    match plainFBTable.lookup op with
    | some p => pure (.plain p)
    | none => Dec.err (.InvalidMarkerByteAfterFB op)

/-- src/decode/instructions.rs:657-710: the `match` after the prefix 0xFC; counting steps -/
def parseFC (op : UInt32) : Dec R ParseError Instr := Dec.step <|
  if op = 8 then do let y ← memData; let x ← memMem; pure (.MemoryInit x y)
  else if op = 9 then do let x ← memData; pure (.DataDrop x)
  else if op = 10 then do let x1 ← memMem; let x2 ← memMem; pure (.MemoryCopy x1 x2)
  else if op = 11 then do let x ← memMem; pure (.MemoryFill x)
  else if op = 12 then do let y ← tabElem; let x ← tabTable; pure (.TableInit x y)
  else if op = 13 then do let x ← tabElem; pure (.ElemDrop x)
  else if op = 14 then do let x ← tabTable; let y ← tabTable; pure (.TableCopy x y)
  else if op = 15 then do let x ← tabTable; pure (.TableGrow x)
  else if op = 16 then do let x ← tabTable; pure (.TableSize x)
  else if op = 17 then do let x ← tabTable; pure (.TableFill x)
  else
    match plainFCTable.lookup op with
    | some p => pure (.plain p)
    | none => Dec.err (.InvalidMarkerByteAfterFC op)

/-- src/decode/instructions.rs:713-1007: the `match` after the prefix 0xFD; counting steps -/
def parseFD (op : UInt32) : Dec R ParseError Instr := Dec.step <|
  if op ≤ 11 ∨ op = 92 ∨ op = 93 then do
    let m ← vecMemarg
    match memFDTable.lookup op with
    | some p => pure (.mem p m)
    | none => Dec.panic                              -- `unreachable!()`
  else if 84 ≤ op ∧ op ≤ 91 then do
    let m ← vecMemarg
    let l ← vecLane
    match memLaneFDTable.lookup op with
    | some p => pure (.memLane p m l)
    | none => Dec.panic                              -- `unreachable!()`
  else if op = 12 then do let v ← vecBytes; pure (.V128Const v)
  else if op = 13 then do let v ← vecBytes; pure (.I8x16Shuffle v)
  else if 21 ≤ op ∧ op ≤ 34 then do
    let l ← vecLane
    match laneFDTable.lookup op with
    | some p => pure (.lane p l)
    | none => Dec.panic                              -- `unreachable!()`
  else
    match plainFDTable.lookup op with
    | some p => pure (.plain p)
    | none => Dec.err (.Vector (.InvalidOpcode op))

/-- The arms of `Instruction::parse` (src/decode/instructions.rs:202-1009) that do not recurse,
for an opcode other than `end` (0x0B), `else` (0x05), 0x02..=0x04 and 0x1F; counting steps -/
def parseSimple (op : UInt8) : Dec R ParseError Instr := Dec.step <|
  if op = 0x1B then pure (.Select none)
  else if op = 0x1C then do
    let ts ← (decodeList ValType.decode).mapErr (fun e => ParseError.Parametric (.DecodeList e))
    pure (.Select (some ts))
  else if op = 0x08 then do
    let x ← TagIdx.decode.mapErr (fun e => ParseError.Control (.TagIdx e))
    pure (.Throw x)
  else if op = 0x0C then do let l ← ctlLabel; pure (.Br l)
  else if op = 0x0D then do let l ← ctlLabel; pure (.BrIf l)
  else if op = 0x0E then do
    let l ← (decodeList LabelIdx.decode).mapErr
      (fun e => ParseError.Control (.DecodeLabelIdxVector e))
    let ln ← ctlLabel
    pure (.BrTable l ln)
  else if op = 0x10 then do let x ← ctlFunc; pure (.Call x)
  else if op = 0x11 then do let y ← ctlType; let x ← ctlTable; pure (.CallIndirect x y)
  else if op = 0x12 then do let x ← ctlFunc; pure (.ReturnCall x)
  else if op = 0x13 then do let y ← ctlType; let x ← ctlTable; pure (.ReturnCallIndirect x y)
  else if op = 0x14 then do let x ← ctlType; pure (.CallRef x)
  else if op = 0x15 then do let x ← ctlType; pure (.ReturnCallRef x)
  else if op = 0xD5 then do let l ← ctlLabel; pure (.BrOnNull l)
  else if op = 0xD6 then do let l ← ctlLabel; pure (.BrOnNonNull l)
  else if op = 0xD0 then do let ht ← refHeap; pure (.RefNull ht)
  else if op = 0xD2 then do
    let x ← FuncIdx.decode.mapErr (fun e => ParseError.Reference (.FuncIdx e))
    pure (.RefFunc x)
  else if op = 0xFB then do
    let sub ← decodeU32.mapErr (fun e => ParseError.Reference (.ReadSubOpcode e))
    parseFB sub
  else if op = 0x20 then do let x ← varLocal; pure (.LocalGet x)
  else if op = 0x21 then do let x ← varLocal; pure (.LocalSet x)
  else if op = 0x22 then do let x ← varLocal; pure (.LocalTee x)
  else if op = 0x23 then do let x ← varGlobal; pure (.GlobalGet x)
  else if op = 0x24 then do let x ← varGlobal; pure (.GlobalSet x)
  else if op = 0x25 then do let x ← tabTable; pure (.TableGet x)
  else if op = 0x26 then do let x ← tabTable; pure (.TableSet x)
  else if 0x28 ≤ op ∧ op ≤ 0x3E then do
    let m ← Memarg.decode.mapErr (fun e => ParseError.Memory (.DecodeMemarg e))
    match memTable.lookup op with
    | some p => pure (.mem p m)
    | none => Dec.panic                              -- `unreachable!()`
  else if op = 0x3F then do let x ← memMem; pure (.MemorySize x)
  else if op = 0x40 then do let x ← memMem; pure (.MemoryGrow x)
  else if op = 0x41 then do
    let v ← decodeI32.mapErr (fun e => ParseError.Numeric (.DecodeI32 e))
    pure (.I32Const v)
  else if op = 0x42 then do
    let v ← decodeI64.mapErr (fun e => ParseError.Numeric (.DecodeI64 e))
    pure (.I64Const v)
  else if op = 0x43 then do
    let v ← decodeF32.mapErr (fun e => ParseError.Numeric (.DecodeF32 e))
    pure (.F32Const v)
  else if op = 0x44 then do
    let v ← decodeF64.mapErr (fun e => ParseError.Numeric (.DecodeF64 e))
    pure (.F64Const v)
  else if op = 0xFC then do
    let sub ← decodeU32.mapErr (fun e => ParseError.Numeric (.ReadOpcode e))
    parseFC sub
  else if op = 0xFD then do
    let sub ← decodeU32.mapErr (fun e => ParseError.Vector (.ReadOpcode e))
    parseFD sub
  else
    match plainByteTable.lookup op with
    | some p => pure (.plain p)
    | none => Dec.err (.InvalidOpcode op)

/-- The loops `loop { parsed = Self::parse(reader)?; match parsed { .. } }` of
src/decode/instructions.rs:226-239, 248-257 and 301-308: push instructions until `end`, or, if
`allowElse`, until `else`; an `else` elsewhere is an error.  Returns the instructions and the last
`parsed`.  `p` is `Self::parse`; the `Nat` is the step budget (model artefact); counting steps -/
def parseSeq (p : Dec R ParseError ParseResult) :
    Nat → Bool → List Instr → Dec R ParseError (List Instr × ParseResult)
  | 0, _, _ => Dec.step <| Dec.outOfFuel
  | n + 1, allowElse, acc => Dec.step <| do
    let parsed ← p
    match parsed with
    | .Instruction i => parseSeq p n allowElse (acc ++ [i])
    | .End => pure (acc, .End)
    | .Else => if allowElse then pure (acc, .Else) else Dec.err (.Control .UnexpectedElse)

/-- src/decode/instructions.rs:203-1012 `Instruction::parse`.  The first argument bounds the
recursion (model artefact; Rust recurses on the call stack); counting steps -/
def parse : Nat → Dec R ParseError ParseResult
  | 0 => Dec.step <| Dec.outOfFuel
  | n + 1 => Dec.step <| do
    let opcode ← (readExact 1).mapErr ParseError.ReadOpcode
    match opcode with
    | [op] =>
      if op = 0x0B then pure .End
      else if op = 0x05 then pure .Else
      else if 0x02 ≤ op ∧ op ≤ 0x04 then do
        let bt ← BlockType.decode.mapErr (fun e => ParseError.Control (.BlockType e))
        let (in1, parsed) ← parseSeq (parse n) n (op == 0x04) []
        if op = 0x02 then pure (.Instruction (.Block bt in1))
        else if op = 0x03 then pure (.Instruction (.Loop bt in1))
        else if op = 0x04 then
          match parsed with
          | .End => pure (.Instruction (.If bt in1 none))
          | .Else => do
            let (in2, _) ← parseSeq (parse n) n false []
            pure (.Instruction (.If bt in1 (some in2)))
          | .Instruction _ => Dec.panic              -- `unreachable!()`
        else Dec.panic                               -- `unreachable!()`
      else if op = 0x1F then do
        let bt ← BlockType.decode.mapErr (fun e => ParseError.Control (.BlockType e))
        let c ← (decodeList Catch.decode).mapErr
          (fun e => ParseError.Control (.DecodeCatchListError e))
        let (ins, _) ← parseSeq (parse n) n false []
        pure (.Instruction (.TryTable bt c ins))
      else do
        let i ← parseSimple op
        pure (.Instruction i)
    | _ => Dec.panic                                 -- `opcode[0]` of a one-byte array

/-- The loop of `decode_expr` (src/decode/helpers.rs:29-42); `p` is `Instruction::parse`; counting steps -/
def decodeExprLoop (p : Dec R ParseError ParseResult) :
    Nat → List Instr → Bool → Dec R ParseExpressionError (Expr × Bool)
  | 0, _, _ => Dec.step <| Dec.outOfFuel
  | n + 1, body, encountered_data_index => Dec.step <| do
    let parsed ← p.mapErr ParseExpressionError.ParseInstruction
    match parsed with
    | .Instruction ins => do
      Dec.charge (scanned ins)
      decodeExprLoop p n (body ++ [ins]) (if containsDataIdx ins then true else encountered_data_index)
    | .End => pure (body, encountered_data_index)
    | .Else => Dec.err .UnexpectedElse

/-- src/decode/helpers.rs:23-45 `decode_expr`.  The step budget is what is left in the reader; counting steps -/
def decodeExpr : Dec R ParseExpressionError (Expr × Bool) := Dec.step <| fun r =>
  decodeExprLoop (parse (Read.weight r + 1)) (Read.weight r + 1) [] false r

/-! ### Model/Sections.lean -/

/-- src/decode/sections/code.rs:97-116 `parse_code_local`; the `&mut expanded_locals` argument is
threaded as a state.  `+=` panics (checked build) if the sum overflows; counting steps -/
def parseCodeLocal (expanded_locals : UInt64) : Dec R DecodeCodeLocalsError (Local × UInt64) := Dec.step <| do
  let count ← decodeU32.mapErr DecodeCodeLocalsError.DecodeLocalsCount
  if 2 ^ 64 ≤ expanded_locals.toNat + count.toNat then Dec.panic
  else do
    let expanded_locals := expanded_locals + count.toUInt64
    if maxLocals < expanded_locals then Dec.err (.LocalsCountOutOfBound maxLocals expanded_locals)
    else do
      let t ← ValType.decode.mapErr DecodeCodeLocalsError.DecodeLocalValType
      pure (⟨count, t⟩, expanded_locals)

/-- src/decode/sections/code.rs:57-61: the part of `parse_code` inside `reader.take(size)`; counting steps -/
def parseCodeBody : Dec R DecodeCodeError (List Local × Expr × Bool) := Dec.step <| do
  let (locals, _) ← (decodeListS parseCodeLocal 0).mapErr DecodeCodeError.DecodeLocalsVector
  let (expr, encountered_data_index) ← decodeExpr.mapErr DecodeCodeError.DecodeFunctionBody
  pure (locals, expr, encountered_data_index)

/-- src/decode/sections/code.rs:50-77 `parse_code`; counting steps -/
def parseCode : Dec R DecodeCodeError Code := Dec.step <| do
  let size ← decodeU32.mapErr DecodeCodeError.DecodeFunctionSize
  let ((locals, expr, encountered_data_index), limit) ← Dec.withTake size.toNat parseCodeBody
  if limit ≠ 0 then
    Dec.err (.EntrySizeMismatch size (UInt64.ofNat limit) (UInt64.ofNat (size.toNat - limit)))
  else pure ⟨size, locals, expr, encountered_data_index⟩

/-- src/decode/sections/code.rs:15-19 `decode_code_section`; counting steps -/
def decodeCodeSection : Dec R DecodeCodeSectionError (List Code) := Dec.step <|
  (decodeList parseCode).mapErr DecodeCodeSectionError.DecodeList

/-- src/decode/sections/custom.rs:15-23 `decode_section_custom`; counting steps -/
def decodeSectionCustom : Dec R DecodeCustomSectionError CustomSection := Dec.step <| do
  let name ← decodeName.mapErr DecodeCustomSectionError.DecodeName
  let contents ← readToEnd.mapErr DecodeCustomSectionError.Io
  pure ⟨name, contents⟩

/-- `let (e, _) = decode_expr(reader)?` at src/decode/sections/data.rs:48, 60, table.rs:48, global.rs:31
and element.rs:72, 94, 112, 135; counting steps -/
def decodeExpr' : Dec R ParseExpressionError Expr := Dec.step <| do
  let (e, _) ← decodeExpr
  pure e

/-- src/decode/sections/data.rs:42-74 `parse_data`; counting steps -/
def parseData : Dec R DecodeDataSegmentError Data := Dec.step <| do
  let n ← decodeU32.mapErr DecodeDataSegmentError.DecodeBitfield
  if n = 0 then do
    let e ← decodeExpr'.mapErr DecodeDataSegmentError.DecodeOffsetExpr
    let init ← decodeByteVector.mapErr DecodeDataSegmentError.DecodeInitVector
    pure ⟨init, .Active ⟨0⟩ e⟩
  else if n = 1 then do
    let init ← decodeByteVector.mapErr DecodeDataSegmentError.DecodeInitVector
    pure ⟨init, .Passive⟩
  else if n = 2 then do
    let x ← MemIdx.decode.mapErr DecodeDataSegmentError.DecodeMemIdx
    let e ← decodeExpr'.mapErr DecodeDataSegmentError.DecodeOffsetExpr
    let init ← decodeByteVector.mapErr DecodeDataSegmentError.DecodeInitVector
    pure ⟨init, .Active x e⟩
  else Dec.err (.InvalidBitfield n)

/-- src/decode/sections/data.rs:18-22 `decode_data_section`; counting steps -/
def decodeDataSection : Dec R DecodeDataSectionError (List Data) := Dec.step <|
  (decodeList parseData).mapErr DecodeDataSectionError.DecodeList

/-- src/decode/sections/data_count.rs:11-15 `decode_datacount_section`; counting steps -/
def decodeDatacountSection : Dec R DecodeDataCountSectionError UInt32 := Dec.step <|
  decodeU32.mapErr DecodeDataCountSectionError.DecodeDataSegmentCount

/-- src/decode/sections/element.rs:175-187 `parse_elemkind`; counting steps -/
def parseElemKind : Dec R DecodeElementKindError RefType := Dec.step <| do
  let b ← readByte.mapErr DecodeElementKindError.Io
  if b ≠ 0x00 then Dec.err (.InvalidElemKind b)
  else pure ⟨true, .Ht .Func⟩

/-- src/decode/sections/element.rs:73, 88, 96, 108: `decode_list(reader, FuncIdx::decode)?` in `parse_elem`; counting steps -/
def elemFuncs : Dec R DecodeElementError (List FuncIdx) := Dec.step <|
  (decodeList FuncIdx.decode).mapErr DecodeElementError.DecodeFuncIdxVector

/-- src/decode/sections/element.rs:113, 129, 137, 151:
`decode_list(reader, |r| decode_expr(r).map(|(expr, _)| expr)).map_err(..)?` in `parse_elem`; counting steps -/
def elemExprs : Dec R DecodeElementError (List Expr) := Dec.step <|
  (decodeList decodeExpr').mapErr DecodeElementError.DecodeInit

/-- src/decode/sections/element.rs:61-160 `parse_elem`; counting steps -/
def parseElem : Dec R DecodeElementError Elem := Dec.step <| do
  let bitfield ← decodeU32.mapErr DecodeElementError.DecodeBitfield
  if bitfield = 0 then do
    let e ← decodeExpr'.mapErr DecodeElementError.DecodeOffsetExpression
    let y ← elemFuncs; Dec.charge y.length
    pure ⟨⟨false, .Ht .Func⟩, funcidxIntoReffunc y, .Active ⟨0⟩ e⟩
  else if bitfield = 1 then do
    let rt ← parseElemKind.mapErr DecodeElementError.DecodeElementKind
    let y ← elemFuncs; Dec.charge y.length
    pure ⟨rt, funcidxIntoReffunc y, .Passive⟩
  else if bitfield = 2 then do
    let x ← TableIdx.decode.mapErr DecodeElementError.DecodeTableIdx
    let e ← decodeExpr'.mapErr DecodeElementError.DecodeElementExpression
    let rt ← parseElemKind.mapErr DecodeElementError.DecodeElementKind
    let y ← elemFuncs; Dec.charge y.length
    pure ⟨rt, funcidxIntoReffunc y, .Active x e⟩
  else if bitfield = 3 then do
    let rt ← parseElemKind.mapErr DecodeElementError.DecodeElementKind
    let y ← elemFuncs; Dec.charge y.length
    pure ⟨rt, funcidxIntoReffunc y, .Declare⟩
  else if bitfield = 4 then do
    let e ← decodeExpr'.mapErr DecodeElementError.DecodeOffsetExpression
    let el ← elemExprs
    pure ⟨⟨true, .Ht .Func⟩, el, .Active ⟨0⟩ e⟩
  else if bitfield = 5 then do
    let rt ← RefType.decode.mapErr DecodeElementError.DecodeReferenceType
    let el ← elemExprs
    pure ⟨rt, el, .Passive⟩
  else if bitfield = 6 then do
    let x ← TableIdx.decode.mapErr DecodeElementError.DecodeTableIdx
    let e ← decodeExpr'.mapErr DecodeElementError.DecodeOffsetExpression
    let rt ← RefType.decode.mapErr DecodeElementError.DecodeReferenceType
    let el ← elemExprs
    pure ⟨rt, el, .Active x e⟩
  else if bitfield = 7 then do
    let rt ← RefType.decode.mapErr DecodeElementError.DecodeReferenceType
    let el ← elemExprs
    pure ⟨rt, el, .Declare⟩
  else Dec.err (.InvalidBitfield bitfield)

/-- src/decode/sections/element.rs:21-25 `decode_element_section`; counting steps -/
def decodeElementSection : Dec R DecodeElementSectionError (List Elem) := Dec.step <|
  (decodeList parseElem).mapErr DecodeElementSectionError.DecodeList

/-- src/decode/sections/export.rs:57-66 `ExternIdx::from`; counting steps -/
def ExternIdx.from (b : UInt8) (idx : UInt32) : Dec R InvalidExportDescMarkerByte ExternIdx := Dec.step <|
  if b = 0x00 then pure (.Func ⟨idx⟩)
  else if b = 0x01 then pure (.Table ⟨idx⟩)
  else if b = 0x02 then pure (.Mem ⟨idx⟩)
  else if b = 0x03 then pure (.Global ⟨idx⟩)
  else if b = 0x04 then pure (.Tag ⟨idx⟩)
  else Dec.err ⟨b⟩

/-- src/decode/sections/export.rs:37-48 `parse_export`; counting steps -/
def parseExport : Dec R DecodeExportError Export := Dec.step <| do
  let name ← decodeName.mapErr DecodeExportError.DecodeName
  let desc_kind ← readByte.mapErr DecodeExportError.ReadDescriptorMarkerByte
  let idx ← decodeU32.mapErr DecodeExportError.DecodeIndex
  let desc ← (ExternIdx.from desc_kind idx).mapErr DecodeExportError.InvalidDescriptorMarkerByte
  pure ⟨name, desc⟩

/-- src/decode/sections/export.rs:16-20 `decode_export_section`; counting steps -/
def decodeExportSection : Dec R DecodeExportSectionError (List Export) := Dec.step <|
  (decodeList parseExport).mapErr DecodeExportSectionError.DecodeList

/-- src/decode/sections/function.rs:13-17 `decode_function_section`; counting steps -/
def decodeFunctionSection : Dec R DecodeFunctionSectionError (List TypeIdx) := Dec.step <|
  (decodeList TypeIdx.decode).mapErr DecodeFunctionSectionError.DecodeList

/-- src/decode/sections/start.rs:10-14 `decode_start_section`; counting steps -/
def decodeStartSection : Dec R DecodeStartSectionError FuncIdx := Dec.step <|
  FuncIdx.decode.mapErr DecodeStartSectionError.mk

/-- src/decode/sections/tag.rs:13-17 `decode_tag_section`; counting steps -/
def decodeTagSection : Dec R DecodeTagSectionError (List TagType) := Dec.step <|
  (decodeList TagType.decode).mapErr DecodeTagSectionError.DecodeList

/-- src/decode/sections/type.rs:13-17 `decode_type_section`; counting steps -/
def decodeTypeSection : Dec R DecodeTypeSectionError (List RecType) := Dec.step <|
  (decodeList RecType.decode).mapErr DecodeTypeSectionError.DecodeList

/-- src/decode/sections/memory.rs:13-17 `decode_memory_section`; counting steps -/
def decodeMemorySection : Dec R DecodeMemorySectionError (List MemType) := Dec.step <|
  (decodeList parseMemType).mapErr DecodeMemorySectionError.DecodeList

/-- src/decode/sections/global.rs:29-34 `parse_global`; counting steps -/
def parseGlobal : Dec R DecodeGlobalError Global := Dec.step <| do
  let type ← GlobalType.decode.mapErr DecodeGlobalError.DecodeGlobalType
  let init ← decodeExpr'.mapErr DecodeGlobalError.DecodeInit
  pure ⟨type, init⟩

/-- src/decode/sections/global.rs:14-18 `decode_global_section`; counting steps -/
def decodeGlobalSection : Dec R DecodeGlobalSectionError (List Global) := Dec.step <|
  (decodeList parseGlobal).mapErr DecodeGlobalSectionError.DecodeList

/-- src/decode/sections/import.rs:36-46 `parse_import`; counting steps -/
def parseImport : Dec R DecodeImportError Import := Dec.step <| do
  let module_name ← decodeName.mapErr DecodeImportError.DecodeModuleName
  let item_name ← decodeName.mapErr DecodeImportError.DecodeItemName
  let extern_type ← ExternType.decode.mapErr DecodeImportError.DecodeExternType
  pure ⟨module_name, item_name, extern_type⟩

/-- src/decode/sections/import.rs:14-18 `decode_import_section`; counting steps -/
def decodeImportSection : Dec R DecodeImportSectionError (List Import) := Dec.step <|
  (decodeList parseImport).mapErr DecodeImportSectionError.DecodeList

/-- src/decode/sections/table.rs:40-58 `decode_table`; counting steps -/
def decodeTable : Dec R DecodeTableError Table := Dec.step <| do
  let byte ← readByte.mapErr DecodeTableError.Io
  if byte = 0x40 then do
    let b ← readByte.mapErr DecodeTableError.Io
    if b ≠ 0x00 then Dec.err (.UnexpectedMarkerByte b)
    else do
      let tt ← TableType.decode.mapErr DecodeTableError.DecodeTableType
      let e ← decodeExpr'.mapErr DecodeTableError.DecodeExpression
      pure ⟨tt, e⟩
  else do
    let tt ← (Dec.withChain byte TableType.decode).mapErr DecodeTableError.DecodeTableType
    pure ⟨tt, [.RefNull tt.reftype.ht]⟩

/-- src/decode/sections/table.rs:16-20 `decode_table_section`; counting steps -/
def decodeTableSection : Dec R DecodeTableSectionError (List Table) := Dec.step <|
  (decodeList decodeTable).mapErr DecodeTableSectionError.DecodeList

/-! ### Model/Module.lean -/

/-- src/decode/module.rs:26-50 `validate_section_kind_expected`; counting steps -/
def Module.validateSectionKindExpected (self : Module) (current : SectionKind) :
    Dec R DecodeModuleError Unit := Dec.step <|
  match self.parsed_section_kinds.getLast? with
  | none => pure ()
  | some previous =>
    if current = .Custom then pure ()
    else if current.rank < previous.rank then Dec.err (.SectionOutOfOrder current previous)
    else if current = previous then Dec.err (.DuplicateSection current)
    else pure ()

/-- src/decode/module.rs:362-371 `parse_preamble`; counting steps -/
def parsePreamble : Dec R ParsePreambleError Unit := Dec.step <| do
  let preamble ← (readExact 8).mapErr ParsePreambleError.Io
  if preamble ≠ EXPECTED_PREAMBLE then Dec.err (.Unexpected preamble)
  else pure ()

/-- src/decode/module.rs:394-397: the rest of `decode_section_header` after the ID byte; counting steps -/
def sectionHeaderRest (id : UInt8) : Dec R DecodeSectionHeaderError (Option SectionHeader) := Dec.step <|
  match fromMarker SectionKind.markers id with
  | none => Dec.err (.InvalidSectionId ⟨id⟩)
  | some kind => do
    let size ← decodeU32.mapErr DecodeSectionHeaderError.DecodeSectionSize
    pure (some ⟨kind, size⟩)

/-- src/decode/module.rs:385-398 `decode_section_header`: the end of the input at the ID byte is
the end of the module; any error of kind `UnexpectedEof` counts as that. -/
def decodeSectionHeader : Dec R DecodeSectionHeaderError (Option SectionHeader) := Dec.step fun r =>
  match readByte r with
  | ((.ok id, r'), n) => Dec.more n (sectionHeaderRest id r')
  | ((.err e, r'), n) =>
    if e = .unexpectedEof then ((.ok none, r'), n) else ((.err (.ReadSectionIdByte e), r'), n)
  | ((.panic, r'), n) => ((.panic, r'), n)
  | ((.fuel, r'), n) => ((.fuel, r'), n)

/-- src/decode/module.rs:272-284: `for (i, code) in codes.into_iter().enumerate()`; `funcs[i]`
panics if out of bounds; counting steps -/
def fillFuncs (push : Nat) : List Code → Nat → List Func → Bool → Dec R DecodeModuleError (List Func × Bool)
  | [], _, funcs, enc => Dec.step <| pure (funcs, enc)
  | code :: codes, i, funcs, enc => Dec.step <|
    match funcs[i]? with
    | none => Dec.panic
    | some f => do
      Dec.charge (code.locals.length + push * (code.locals.map (fun l => l.count.toNat)).sum)
      fillFuncs push codes (i + 1)
        (funcs.set i { f with locals := f.locals ++ expandLocals code.locals, body := code.expr })
        (if code.encountered_data_index then true else enc)

/-- src/decode/module.rs:229-302: the `match section_kind`, run on `input.by_ref().take(size)`; counting steps -/
def decodeSectionBody (push : Nat) (kind : SectionKind) (st : LoopState) :
    Dec R DecodeModuleError LoopState := Dec.step <|
  let m := st.module
  match kind with
  | .Custom => do
    let s ← decodeSectionCustom.mapErr DecodeModuleError.DecodeCustomSection
    pure { st with module := { m with custom_sections := m.custom_sections ++ [s] } }
  | .Type => do
    let types ← decodeTypeSection.mapErr DecodeModuleError.DecodeTypeSection
    pure { st with module := { m with types } }
  | .Import => do
    let imports ← decodeImportSection.mapErr DecodeModuleError.DecodeImportSection
    pure { st with module := { m with imports } }
  | .Function => do
    let idxs ← decodeFunctionSection.mapErr DecodeModuleError.DecodeFunctionSection
    Dec.charge idxs.length
    pure { st with module :=
      { m with funcs := m.funcs ++ idxs.map (fun type_idx => ⟨type_idx, [], []⟩) } }
  | .Table => do
    let tables ← decodeTableSection.mapErr DecodeModuleError.DecodeTableSection
    pure { st with module := { m with tables } }
  | .Memory => do
    let mems ← decodeMemorySection.mapErr DecodeModuleError.DecodeMemorySection
    pure { st with module := { m with mems } }
  | .Global => do
    let globals ← decodeGlobalSection.mapErr DecodeModuleError.DecodeGlobalSection
    pure { st with module := { m with globals } }
  | .Export => do
    let exports ← decodeExportSection.mapErr DecodeModuleError.DecodeExportSection
    pure { st with module := { m with exports } }
  | .Start => do
    let start ← decodeStartSection.mapErr DecodeModuleError.DecodeStartSection
    pure { st with module := { m with start := some start } }
  | .Element => do
    let elems ← decodeElementSection.mapErr DecodeModuleError.DecodeElementSection
    pure { st with module := { m with elems } }
  | .DataCount => do
    let n ← decodeDatacountSection.mapErr DecodeModuleError.DecodeDatacountSection
    pure { st with module := { m with data_count := some n } }
  | .Code => do
    let codes ← decodeCodeSection.mapErr DecodeModuleError.DecodeCodeSection
    if codes.length ≠ m.funcs.length then
      Dec.err (.CodeFuncEntriesLenMismatch codes.length m.funcs.length)
    else do
      let (funcs, enc) ← fillFuncs push codes 0 m.funcs st.encountered_data_idx_in_code_section
      pure ⟨{ m with funcs }, true, enc⟩
  | .Data => do
    let datas ← decodeDataSection.mapErr DecodeModuleError.DecodeDataSection
    match m.data_count with
    | some data_count =>
      if datas.length ≠ data_count.toNat then
        Dec.err (.DataCountMismatch datas.length data_count)
      else pure { st with module := { m with datas } }
    | none => pure { st with module := { m with datas } }
  | .Tag => do
    let tags ← decodeTagSection.mapErr DecodeModuleError.DecodeTagSection
    pure { st with module := { m with tags } }

/-- src/decode/module.rs:224-318: one iteration of the section loop, after the header has been
read: order check, contents, size check, bookkeeping; counting steps -/
def decodeSection (push : Nat) (h : SectionHeader) (st : LoopState) : Dec R DecodeModuleError LoopState := Dec.step <| do
  Module.validateSectionKindExpected st.module h.kind
  let (st, limit) ← Dec.withTake h.size.toNat (decodeSectionBody push h.kind st)
  if limit ≠ 0 then
    Dec.err (.SectionSizeMismatch h.kind h.size (UInt64.ofNat (h.size.toNat - limit)))
  else
    pure { st with module := { st.module with
      section_headers := st.module.section_headers ++ [h]
      parsed_section_kinds :=
        if h.kind ≠ .Custom then st.module.parsed_section_kinds ++ [h.kind]
        else st.module.parsed_section_kinds } }

/-- src/decode/module.rs:223-319: `while let Some(section_header) = decode_section_header(..)?`.
The `Nat` is the step budget (model artefact); counting steps -/
def sectionLoop (push : Nat) : Nat → LoopState → Dec R DecodeModuleError LoopState
  | 0, _ => Dec.step <| Dec.outOfFuel
  | n + 1, st => Dec.step <| do
    let h ← decodeSectionHeader.mapErr DecodeModuleError.DecodeSectionHeader
    match h with
    | none => pure st
    | some h => do
      let st ← decodeSection push h st
      sectionLoop push n st

/-- src/decode/module.rs:321-350: the checks after the loop.  (`usize::try_from(u32)` cannot
fail: usize has at least 32 bits.); counting steps -/
def finalChecks (st : LoopState) : Dec R DecodeModuleError Module := Dec.step <|
  let m := st.module
  if m.funcs ≠ [] ∧ ¬ st.encountered_code_section = true then
    Dec.err (.CodeFuncEntriesLenMismatch 0 m.funcs.length)
  else if m.data_count.any (fun n => n.toNat ≠ m.datas.length) = true then
    Dec.err (.DataCountDatasLenMismatch m.datas.length (m.data_count.getD 0))
  else if st.encountered_data_idx_in_code_section = true ∧ m.data_count.isNone = true then
    Dec.err .DataIndexWithoutDataCount
  else pure m

/-- src/decode/module.rs:207-351 `decode_module`; counting steps -/
def decodeModule (push : Nat) : Dec R DecodeModuleError Module := Dec.step <| fun r =>
  (do
    parsePreamble.mapErr DecodeModuleError.ParsePreamble
    let st ← sectionLoop push (Read.weight r + 1) ⟨Module.default, false, false⟩
    finalChecks st : Dec R DecodeModuleError Module) r

end Wadec.Counted
