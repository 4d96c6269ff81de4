import Verif.Source.Leaf

/-! Generated by tools/rs2lean.py from src/decode/types/heaptype.rs, src/decode/types/reftype.rs, src/decode/types/valtype.rs, src/decode/types/resulttype.rs, src/decode/types/globaltype.rs, src/decode/types/comptype.rs, src/decode/types/rectype.rs, src/decode/types/limits.rs, src/decode/types/memtype.rs, src/decode/types/tabletype.rs, src/decode/types/tagtype.rs, src/decode/types/externtype.rs, src/decode/types/mod.rs.
Do not edit.  The numbers in the comments are the source lines. -/

namespace Wadec.Source

variable {R : Type} [Read R]

/-- src/decode/types/heaptype.rs:46 -/
def AbsHeapType_MARKERS : List (UInt8 × AbsHeapType) :=
  [((0x69 : UInt8), AbsHeapType.Exn),
   ((0x6A : UInt8), AbsHeapType.Array),
   ((0x6B : UInt8), AbsHeapType.Struct),
   ((0x6C : UInt8), AbsHeapType.I31),
   ((0x6D : UInt8), AbsHeapType.Eq),
   ((0x6E : UInt8), AbsHeapType.Any),
   ((0x6F : UInt8), AbsHeapType.Extern),
   ((0x70 : UInt8), AbsHeapType.Func),
   ((0x71 : UInt8), AbsHeapType.None),
   ((0x72 : UInt8), AbsHeapType.NoExtern),
   ((0x73 : UInt8), AbsHeapType.NoFunc),
   ((0x74 : UInt8), AbsHeapType.NoExn)]

/-- src/decode/types/heaptype.rs:74-79 -/
instance : FromMarkerByte AbsHeapType InvalidAbsHeapTypeMarkerError := ⟨AbsHeapType_MARKERS⟩

/-- src/decode/types/heaptype.rs:23-39 -/
def HeapType.decode : Dec R DecodeHeapTypeError HeapType := do
  let b ← q Source.read_byte  -- 24
  if let .ok t ← attempt (Source.from_marker AbsHeapType b) then  -- 26
    return HeapType.Ht t  -- 27
  Dec.withChain b do  -- 30
    let x ← q Source.decode_s33  -- 31
    if x < 0 then  -- 32
      Dec.err (DecodeHeapTypeError.NegativeTypeIndex x)  -- 33
    let x ← unwrap_ok (tryFrom (β := UInt32) x)  -- 36
    return HeapType.TypeIdx x  -- 38

/-- src/decode/types/heaptype.rs:92-95 -/
def AbsHeapType.decode : Dec R DecodeAbsHeapTypeError AbsHeapType := do
  let marker ← q Source.read_byte  -- 93
  return (← q (Source.from_marker AbsHeapType marker))  -- 94

/-- src/decode/types/reftype.rs:22-46 -/
def RefType.decode : Dec R DecodeRefTypeError RefType := do
  let marker ← q Source.read_byte  -- 23
  if marker = 0x63 then  -- 25
    return ({ nullable := true, ht := (← q Source.HeapType.decode) } : RefType)  -- 26
  else if marker = 0x64 then
    return ({ nullable := false, ht := (← q Source.HeapType.decode) } : RefType)  -- 30
  else
    let b := marker
    let aht ← Dec.withChain b do  -- 36
        q Source.AbsHeapType.decode  -- 37
    return ({ nullable := true, ht := HeapType.Ht aht } : RefType)  -- 40

/-- src/decode/types/valtype.rs:20-32 -/
def ValType.decode : Dec R DecodeValTypeError ValType := do
  let x1 ← q Source.read_byte  -- 21
  if x1 = 0x7F then
    return ValType.Num NumType.Int32  -- 22
  else if x1 = 0x7E then
    return ValType.Num NumType.Int64  -- 23
  else if x1 = 0x7D then
    return ValType.Num NumType.Float32  -- 24
  else if x1 = 0x7C then
    return ValType.Num NumType.Float64  -- 25
  else if x1 = 0x7B then
    return ValType.Vec VecType.V128  -- 26
  else
    let b := x1
    Dec.withChain b do  -- 28
      return ValType.Ref (← q Source.RefType.decode)  -- 29

/-- src/decode/types/resulttype.rs:14-18 -/
def decode_result_type : Dec R DecodeResultTypeError (List ValType) := do
  return (← q (Source.decode_list (FnMut.of Source.ValType.decode))).1  -- 17

/-- src/decode/types/globaltype.rs:38 -/
def Mut_MARKERS : List (UInt8 × Mut) :=
  [((0x00 : UInt8), Mut.Const),
   ((0x01 : UInt8), Mut.Var)]

/-- src/decode/types/globaltype.rs:56-61 -/
instance : FromMarkerByte Mut InvalidMutabilityByteError := ⟨Mut_MARKERS⟩

/-- src/decode/types/globaltype.rs:23-29 -/
def GlobalType.decode : Dec R DecodeGlobalTypeError GlobalType := do
  let valtype ← q Source.ValType.decode  -- 24
  let mut_ ← q (Source.from_marker Mut (← q (Dec.mapErr DecodeGlobalTypeError.DecodeMutability Source.read_byte)))
  return GlobalType.mk mut_ valtype  -- 28

/-- src/decode/types/comptype.rs:135 -/
def PackType_MARKERS : List (UInt8 × PackType) :=
  [((0x77 : UInt8), PackType.I16),
   ((0x78 : UInt8), PackType.I8)]

/-- src/decode/types/comptype.rs:140-145 -/
instance : FromMarkerByte PackType InvalidPackTypeMarkerError := ⟨PackType_MARKERS⟩

/-- src/decode/types/comptype.rs:104-119 -/
def decode_storagetype : Dec R DecodeStorageTypeError StorageType := do
  let marker ← q (Dec.mapErr DecodeStorageTypeError.ReadMarkerByte Source.read_byte)  -- 107
  if let .ok pt ← attempt (Source.from_marker PackType marker) then  -- 109
    return StorageType.PackType pt  -- 110
  Dec.withChain marker do  -- 114
    match ← attempt Source.ValType.decode with  -- 115
    | .ok t => return StorageType.ValType t  -- 116
    | .error e_ => Dec.err (DecodeStorageTypeError.DecodeValTypeOrPackType (marker := marker) (source := e_))

/-- src/decode/types/comptype.rs:79-87 -/
def decode_fieldtype : Dec R DecodeFieldTypeError FieldType := do
  let zt ← q Source.decode_storagetype  -- 80
  let mutability_marker ← q (Dec.mapErr DecodeFieldTypeError.ReadMutabilityMarkerByte Source.read_byte)
  let mut_ ← q (Source.from_marker Mut mutability_marker)  -- 84
  return FieldType.mk mut_ zt  -- 86

/-- src/decode/types/comptype.rs:36-61 -/
def CompType.decode : Dec R DecodeCompTypeError CompType := do
  let marker ← q (Dec.mapErr DecodeCompTypeError.ReadMarkerByte Source.read_byte)  -- 37
  if marker = 0x5E then  -- 39
    let ft ← q Source.decode_fieldtype  -- 41
    return CompType.Array ft  -- 42
  else if marker = 0x5F then
    let (ft, _) ← q (Source.decode_list (FnMut.of Source.decode_fieldtype))  -- 45
    return CompType.Struct ft  -- 46
  else if marker = 0x60 then
    let parameters ← q (Dec.mapErr DecodeCompTypeError.DecodeFuncParameters Source.decode_result_type)
    let results ← q (Dec.mapErr DecodeCompTypeError.DecodeFuncResults Source.decode_result_type)
    return CompType.Func (parameters := parameters) (results := results)  -- 54
  else
    let n := marker
    Dec.err (DecodeCompTypeError.InvalidMarkerByte n)  -- 59

/-- src/decode/types/rectype.rs:54-81 -/
def SubType.decode : Dec R DecodeSubTypeError SubType := do
  let marker ← q Source.read_byte  -- 55
  if marker = 0x4F ∨ marker = 0x50 then  -- 57
    let op := marker
    let (x, _) ← q (Source.decode_list (FnMut.of Source.TypeIdx.decode))  -- 59
    let ct ← q Source.CompType.decode  -- 60
    let is_final : Bool := decide (op = 0x4F)  -- 61
    return ({ is_final := is_final, supertypes := x, comptype := ct } : SubType)  -- 63
  else
    Dec.withChain marker do  -- 72
      return ({ is_final := true, supertypes := [], comptype := (← q Source.CompType.decode) } : SubType)

/-- src/decode/types/rectype.rs:23-35 -/
def RecType.decode : Dec R DecodeRecTypeError RecType := do
  let marker ← q Source.read_byte  -- 24
  if marker = 0x4E then  -- 26
    let (subtypes, _) ← q (Source.decode_list (FnMut.of Source.SubType.decode))  -- 27
    return RecType.mk subtypes  -- 28
  else
    Dec.withChain marker do  -- 31
      let st ← q Source.SubType.decode  -- 32
      return RecType.mk [st]  -- 33

/-- src/decode/types/limits.rs:23-44 -/
def parse_limits : Dec R ParseLimitsError Limits := do
  let (has_max, address_type) ← do  -- 24
      let x1 ← q (Dec.mapErr ParseLimitsError.ReadFlagByte Source.read_byte)
      if x1 = 0x00 then
        pure (false, AddrType.I32)  -- 25
      else if x1 = 0x01 then
        pure (true, AddrType.I32)  -- 26
      else if x1 = 0x04 then
        pure (false, AddrType.I64)  -- 27
      else if x1 = 0x05 then
        pure (true, AddrType.I64)  -- 28
      else
        let n := x1
        Dec.err (ParseLimitsError.UnexpectedFlagByte n)  -- 29
  let min ← q (Dec.mapErr ParseLimitsError.ReadMinLimit Source.decode_u64)  -- 32
  let max ← if has_max = true then  -- 33
      pure (some (← q (Dec.mapErr ParseLimitsError.ReadMaxLimit Source.decode_u64)))  -- 34
    else
      pure none  -- 36
  return ({ address_type := address_type, min := min, max := max } : Limits)  -- 39

/-- src/decode/types/memtype.rs:10-15 -/
def parse_memtype : Dec R DecodeMemoryTypeError MemType := do
  let limits ← q Source.parse_limits  -- 13
  return ({ limits := limits } : MemType)  -- 14

/-- src/decode/types/tabletype.rs:19-23 -/
def TableType.decode : Dec R DecodeTableTypeError TableType := do
  let reftype ← q Source.RefType.decode  -- 20
  let limits ← q Source.parse_limits  -- 21
  return ({ reftype := reftype, limits := limits } : TableType)  -- 22

/-- src/decode/types/tagtype.rs:24 -/
def TagType.MARKER_BYTE : UInt8 := 0x00

/-- src/decode/types/tagtype.rs:26-33 -/
def TagType.decode : Dec R DecodeTagTypeError TagType := do
  let b ← q Source.read_byte  -- 27
  if b ≠ Source.TagType.MARKER_BYTE then  -- 28
    Dec.err (DecodeTagTypeError.InvalidMarkerByte b)  -- 29
  return TagType.mk (← q Source.TypeIdx.decode)  -- 32

/-- src/decode/types/externtype.rs:43-53 -/
def ExternType.decode : Dec R DecodeExternTypeError ExternType := do
  let marker ← q Source.read_byte  -- 44
  if marker = 0x00 then  -- 45
    return ExternType.Func (← q Source.TypeIdx.decode)  -- 46
  else if marker = 0x01 then
    return ExternType.Table (← q Source.TableType.decode)  -- 47
  else if marker = 0x02 then
    return ExternType.Mem (← q Source.parse_memtype)  -- 48
  else if marker = 0x03 then
    return ExternType.Global (← q Source.GlobalType.decode)  -- 49
  else if marker = 0x04 then
    return ExternType.Tag (← q Source.TagType.decode)  -- 50
  else
    Dec.err (DecodeExternTypeError.InvalidMarkerByte marker)  -- 51

end Wadec.Source
