import Verif.Spec.Place
import Verif.Spec.Context
import Verif.Spec.Leb

/-! C55: which error describes the defect of an input.

`F… x bs e`: the available bytes `bs`, after which the reader ends with `x`, do not start with the
encoding of a thing of the given sort, and `e` is the error that describes the first defect.  Each
relation has one rule per possible defect.  A rule says which parts of the thing are there - in terms
of the grammar (`B…`, Spec/Binary.lean, Spec/Instr.lean, Spec/Module.lean) - and what is wrong with the
next part.  The relations do not refer to the model of the decoder; they use its error types. -/

set_option autoImplicit true
set_option relaxedAutoImplicit false

namespace Wadec.Spec

/-! ### Integers, floats, bytes, names, lists -/

inductive FU32 (x : End) : Bytes → DecodeU32Error → Prop
  | short : AllCont b → b.length < 5 → FU32 x b (.Io x.toErr)
  | long : AllCont b → b.length = 5 → FU32 x (b ++ t) .RepresentationTooLong
  | range : Terminated b → b.length ≤ 5 → 2 ^ 32 ≤ uleb b → FU32 x (b ++ t) .TooLarge

inductive FU64 (x : End) : Bytes → DecodeU64Error → Prop
  | short : AllCont b → b.length < 10 → FU64 x b (.Io x.toErr)
  | long : AllCont b → b.length = 10 → FU64 x (b ++ t) .RepresentationTooLong
  | range : Terminated b → b.length ≤ 10 → 2 ^ 64 ≤ uleb b → FU64 x (b ++ t) .TooLarge

inductive FI32 (x : End) : Bytes → DecodeI32Error → Prop
  | short : AllCont b → b.length < 5 → FI32 x b (.Io x.toErr)
  | long : AllCont b → b.length = 5 → FI32 x (b ++ t) .RepresentationTooLong
  | range : Terminated b → b.length ≤ 5 → ¬ (-2 ^ 31 ≤ sleb b ∧ sleb b < 2 ^ 31) →
      FI32 x (b ++ t) .TooLarge

inductive FI64 (x : End) : Bytes → DecodeI64Error → Prop
  | short : AllCont b → b.length < 10 → FI64 x b (.Io x.toErr)
  | long : AllCont b → b.length = 10 → FI64 x (b ++ t) .RepresentationTooLong
  | range : Terminated b → b.length ≤ 10 → ¬ (-2 ^ 63 ≤ sleb b ∧ sleb b < 2 ^ 63) →
      FI64 x (b ++ t) .IncorrectSignExtension

inductive FS33 (x : End) : Bytes → DecodeS33Error → Prop
  | short : AllCont b → b.length < 5 → FS33 x b (.Io x.toErr)
  | long : AllCont b → b.length = 5 → FS33 x (b ++ t) .RepresentationTooLong
  | range : Terminated b → b.length ≤ 5 → ¬ (-2 ^ 32 ≤ sleb b ∧ sleb b < 2 ^ 32) →
      FS33 x (b ++ t) .IncorrectSignExtension

/-- `n` bytes are expected. -/
inductive FBytes (n : Nat) (x : End) : Bytes → IoError → Prop
  | short : b.length < n → FBytes n x b x.toErr

inductive FF32 (x : End) : Bytes → DecodeFloat32Error → Prop
  | mk : FBytes 4 x b e → FF32 x b (.ReadPayload e)
inductive FF64 (x : End) : Bytes → DecodeFloat64Error → Prop
  | mk : FBytes 8 x b e → FF64 x b (.ReadPayload e)

inductive FTypeIdx (x : End) : Bytes → DecodeTypeIdxError → Prop
  | mk : FU32 x b e → FTypeIdx x b ⟨e⟩
inductive FFuncIdx (x : End) : Bytes → DecodeFuncIdxError → Prop
  | mk : FU32 x b e → FFuncIdx x b ⟨e⟩
inductive FTableIdx (x : End) : Bytes → DecodeTableIdxError → Prop
  | mk : FU32 x b e → FTableIdx x b ⟨e⟩
inductive FMemIdx (x : End) : Bytes → DecodeMemIdxError → Prop
  | mk : FU32 x b e → FMemIdx x b ⟨e⟩
inductive FGlobalIdx (x : End) : Bytes → DecodeGlobalIdxError → Prop
  | mk : FU32 x b e → FGlobalIdx x b ⟨e⟩
inductive FElemIdx (x : End) : Bytes → DecodeElemIdxError → Prop
  | mk : FU32 x b e → FElemIdx x b ⟨e⟩
inductive FDataIdx (x : End) : Bytes → DecodeDataIdxError → Prop
  | mk : FU32 x b e → FDataIdx x b ⟨e⟩
inductive FLocalIdx (x : End) : Bytes → DecodeLocalIdxError → Prop
  | mk : FU32 x b e → FLocalIdx x b ⟨e⟩
inductive FLabelIdx (x : End) : Bytes → DecodeLabelIdxError → Prop
  | mk : FU32 x b e → FLabelIdx x b ⟨e⟩
inductive FTagIdx (x : End) : Bytes → DecodeTagIdxError → Prop
  | mk : FU32 x b e → FTagIdx x b ⟨e⟩

/-- A list of things described by `B`, whose defects are described by `F`: there is no length, or
after `l.length` elements, fewer than announced, there is no further one. -/
inductive FList {α ε : Type} (F : End → Bytes → ε → Prop) (B : Bytes → α → Prop) (x : End) :
    Bytes → DecodeListError ε → Prop
  | length : FU32 x b e → FList F B x b (.DecodeLength e)
  | element {n i : UInt32} {l : List α} : BU32 b n → BSeq B c l → i.toNat = l.length →
      l.length < n.toNat → F x t e → FList F B x (b ++ (c ++ t)) (.ParseElement i e)

inductive FByteVec (x : End) : Bytes → DecodeByteVectorError → Prop
  | length : FU32 x b e → FByteVec x b (.DecodeLength e)
  | elements {n : UInt32} : BU32 b n → FBytes n.toNat x t e → FByteVec x (b ++ t) (.ReadElements e)

/-- `v` is not UTF-8: `p` is its longest part from the start that is, `q` the rest.  The error tells
the length of `p`, and, unless `q` could be completed to a character by further bytes, how many bytes
of `q` are to be discarded: as many as could start a character, but at least one. -/
inductive FUtf8 : Bytes → FromUtf8Error → Prop
  | incomplete {p q : Bytes} {c : Char} : ValidUtf8 p → q ≠ [] → q <+: utf8Char c → q ≠ utf8Char c →
      FUtf8 (p ++ q) ⟨p ++ q, p.length, none⟩
  | invalid {p q : Bytes} {n : Nat} : ValidUtf8 p → 1 ≤ n → n ≤ q.length →
      (∀ c, ¬ utf8Char c <+: q) → (n = 1 ∨ ∃ c, q.take n <+: utf8Char c) →
      (∀ c, ¬ q.take (n + 1) <+: utf8Char c) → FUtf8 (p ++ q) ⟨p ++ q, p.length, some n⟩

inductive FName (x : End) : Bytes → DecodeNameError → Prop
  | bytes : FByteVec x b e → FName x b (.DecodeByteVector e)
  | utf8 : BByteVec b v → FUtf8 v e → FName x (b ++ t) (.Utf8 e)

/-! ### Types -/

inductive FHeapType (x : End) : Bytes → DecodeHeapTypeError → Prop
  | missing : FHeapType x [] (.ReadMarkerByte x.toErr)
  | index {m : UInt8} : FS33 x (m :: b) e → FHeapType x (m :: b) (.DecodeTypeIndex e)
  | negative : BS33 b i → (∀ t, ¬ BAbsHeapType b t) → i.toInt < 0 →
      FHeapType x (b ++ t) (.NegativeTypeIndex i)

inductive FRefType (x : End) : Bytes → DecodeRefTypeError → Prop
  | missing : FRefType x [] (.Io x.toErr)
  | heap {m : UInt8} : m ∈ [0x63, 0x64] → FHeapType x b e → FRefType x (m :: b) (.DecodeHeapType e)
  | marker {m : UInt8} : m ∉ [0x63, 0x64] → (∀ t, ¬ BAbsHeapType [m] t) →
      FRefType x (m :: b) (.InvalidMarkerByte (.InvalidMarkerByte ⟨m⟩))

inductive FValType (x : End) : Bytes → DecodeValTypeError → Prop
  | missing : FValType x [] (.Io x.toErr)
  | ref : (∀ t, ¬ BValType [m] t) → FRefType x (m :: b) e → FValType x (m :: b) (.DecodeRefType e)

inductive FResultType (x : End) : Bytes → DecodeResultTypeError → Prop
  | list : FList FValType BValType x b e → FResultType x b (.DecodeList e)

inductive FGlobalType (x : End) : Bytes → DecodeGlobalTypeError → Prop
  | type : FValType x b e → FGlobalType x b (.DecodeValueType e)
  | missing : BValType b t → FGlobalType x b (.DecodeMutability x.toErr)
  | «mut» {m : UInt8} : BValType b t → (∀ v, ¬ BMut [m] v) →
      FGlobalType x (b ++ m :: c) (.InvalidMutability ⟨m⟩)

inductive FStorageType (x : End) : Bytes → DecodeStorageTypeError → Prop
  | missing : FStorageType x [] (.ReadMarkerByte x.toErr)
  | val {m : UInt8} : m ∉ [0x77, 0x78] → FValType x (m :: b) e →
      FStorageType x (m :: b) (.DecodeValTypeOrPackType m e)

inductive FFieldType (x : End) : Bytes → DecodeFieldTypeError → Prop
  | type : FStorageType x b e → FFieldType x b (.DecodeStorageType e)
  | missing : BStorageType b t → FFieldType x b (.ReadMutabilityMarkerByte x.toErr)
  | «mut» {m : UInt8} : BStorageType b t → (∀ v, ¬ BMut [m] v) →
      FFieldType x (b ++ m :: c) (.DecodeMutability ⟨m⟩)

inductive FCompType (x : End) : Bytes → DecodeCompTypeError → Prop
  | missing : FCompType x [] (.ReadMarkerByte x.toErr)
  | marker {m : UInt8} : m ∉ [0x5E, 0x5F, 0x60] → FCompType x (m :: b) (.InvalidMarkerByte m)
  | array : FFieldType x b e → FCompType x (0x5E :: b) (.DecodeFieldType e)
  | «struct» : FList FFieldType BFieldType x b e → FCompType x (0x5F :: b) (.DecodeStruct e)
  | params : FResultType x b e → FCompType x (0x60 :: b) (.DecodeFuncParameters e)
  | results : BResultType b l → FResultType x c e → FCompType x (0x60 :: (b ++ c)) (.DecodeFuncResults e)

inductive FSubType (x : End) : Bytes → DecodeSubTypeError → Prop
  | missing : FSubType x [] (.Io x.toErr)
  | supers {m : UInt8} : m ∈ [0x4F, 0x50] → FList FTypeIdx BTypeIdx x b e →
      FSubType x (m :: b) (.DecodeSupertypes e)
  | comp {m : UInt8} : m ∈ [0x4F, 0x50] → BList BTypeIdx b l → FCompType x c e →
      FSubType x (m :: (b ++ c)) (.DecodeCompType e)
  | short {m : UInt8} : m ∉ [0x4F, 0x50] → FCompType x (m :: b) e → FSubType x (m :: b) (.DecodeCompType e)

inductive FRecType (x : End) : Bytes → DecodeRecTypeError → Prop
  | missing : FRecType x [] (.Io x.toErr)
  | group : FList FSubType BSubType x b e → FRecType x (0x4E :: b) (.DecodeSubtypes e)
  | single {m : UInt8} : m ≠ 0x4E → FSubType x (m :: b) e → FRecType x (m :: b) (.DecodeSubtype e)

inductive FLimits (x : End) : Bytes → ParseLimitsError → Prop
  | missing : FLimits x [] (.ReadFlagByte x.toErr)
  | flag {m : UInt8} : m ∉ [0x00, 0x01, 0x04, 0x05] → FLimits x (m :: b) (.UnexpectedFlagByte m)
  | min {m : UInt8} : m ∈ [0x00, 0x01, 0x04, 0x05] → FU64 x b e → FLimits x (m :: b) (.ReadMinLimit e)
  | max {m : UInt8} : m ∈ [0x01, 0x05] → BU64 b n → FU64 x c e → FLimits x (m :: (b ++ c)) (.ReadMaxLimit e)

inductive FMemType (x : End) : Bytes → DecodeMemoryTypeError → Prop
  | limits : FLimits x b e → FMemType x b ⟨e⟩

inductive FTableType (x : End) : Bytes → DecodeTableTypeError → Prop
  | type : FRefType x b e → FTableType x b (.DecodeRefType e)
  | limits : BRefType b t → FLimits x c e → FTableType x (b ++ c) (.DecodeLimits e)

inductive FTagType (x : End) : Bytes → DecodeTagTypeError → Prop
  | missing : FTagType x [] (.ReadMarkerByte x.toErr)
  | marker {m : UInt8} : m ≠ 0x00 → FTagType x (m :: b) (.InvalidMarkerByte m)
  | type : FTypeIdx x b e → FTagType x (0x00 :: b) (.DecodeTypeIndex e)

inductive FExternType (x : End) : Bytes → DecodeExternTypeError → Prop
  | missing : FExternType x [] (.ReadMarkerByte x.toErr)
  | marker {m : UInt8} : m ∉ [0x00, 0x01, 0x02, 0x03, 0x04] → FExternType x (m :: b) (.InvalidMarkerByte m)
  | func : FTypeIdx x b e → FExternType x (0x00 :: b) (.DecodeTypeIndex e)
  | table : FTableType x b e → FExternType x (0x01 :: b) (.DecodeTableType e)
  | mem : FMemType x b e → FExternType x (0x02 :: b) (.DecodeMemoryType e)
  | «global» : FGlobalType x b e → FExternType x (0x03 :: b) (.DecodeGlobalType e)
  | tag : FTagType x b e → FExternType x (0x04 :: b) (.DecodeTagType e)

/-! ### Instructions -/

inductive FMemarg (x : End) : Bytes → MemargError → Prop
  | align : FU32 x b e → FMemarg x b (.Align e)
  | flags {n : UInt32} : BU32 b n → 2 ^ 7 ≤ n.toNat → FMemarg x (b ++ t) (.InvalidFlagsBit n)
  | mem {n : UInt32} : BU32 b n → 2 ^ 6 ≤ n.toNat → n.toNat < 2 ^ 7 → FMemIdx x c e →
      FMemarg x (b ++ c) (.MemIdx e)
  | offset {n : UInt32} : BU32 b n → n.toNat < 2 ^ 6 → FU64 x c e → FMemarg x (b ++ c) (.Offset e)
  | offset' {n : UInt32} : BU32 b n → 2 ^ 6 ≤ n.toNat → n.toNat < 2 ^ 7 → BMemIdx c i → FU64 x d e →
      FMemarg x (b ++ (c ++ d)) (.Offset e)

inductive FLaneIdx (x : End) : Bytes → LaneIdxError → Prop
  | missing : FLaneIdx x [] ⟨x.toErr⟩

/-- The defects of a heap type after 0x63 or 0x64 are not reported: the error is that of the type
index spelt by that byte alone (a defect of the decoder, see C33). -/
inductive FBlockType (x : End) : Bytes → BlockTypeError → Prop
  | missing : FBlockType x [] (.ReadMarkerByte x.toErr)
  | refNull : FHeapType x b e → FBlockType x (0x63 :: b) (.NegativeTypeIndex (-29))
  | ref : FHeapType x b e → FBlockType x (0x64 :: b) (.NegativeTypeIndex (-28))
  | index {m : UInt8} : FS33 x (m :: b) e → FBlockType x (m :: b) (.DecodeIndex e)
  | negative {m : UInt8} : BS33 (m :: b) i → m ∉ [0x40, 0x63, 0x64] → (∀ t, ¬ BValType (m :: b) t) →
      i.toInt < 0 → FBlockType x (m :: (b ++ t)) (.NegativeTypeIndex i)

inductive FCatch (x : End) : Bytes → CatchError → Prop
  | missing : FCatch x [] (.ReadMarkerByte x.toErr)
  | marker {m : UInt8} : m ∉ [0x00, 0x01, 0x02, 0x03] → FCatch x (m :: b) (.InvalidMarkerByte m)
  | tag {m : UInt8} : m ∈ [0x00, 0x01] → FTagIdx x b e → FCatch x (m :: b) (.DecodeTagIdx e)
  | label {m : UInt8} : m ∈ [0x00, 0x01] → BTagIdx b i → FLabelIdx x c e → FCatch x (m :: (b ++ c)) (.DecodeLabelIdx e)
  | labelAll {m : UInt8} : m ∈ [0x02, 0x03] → FLabelIdx x b e → FCatch x (m :: b) (.DecodeLabelIdx e)

/-- `FImm x op bs e`: the opcode `op` is followed by `bs`, and a defect of the immediates of its
instruction is described by `e`.  (Opcodes: Spec/Opcodes.lean and Spec/Instr.lean.) -/
inductive FImm (x : End) : Opcode → Bytes → ParseError → Prop
  -- instructions with a memory argument and a lane
  | mem {p : MemOp} {n : UInt8} : opcodeOfMemOp p = .byte n → FMemarg x b e →
      FImm x (.byte n) b (.Memory (.DecodeMemarg e))
  | memVec {p : MemOp} {n : Nat} : opcodeOfMemOp p = .fd n → FMemarg x b e →
      FImm x (.fd n) b (.Vector (.Memarg e))
  | memLane {p : MemLaneOp} : FMemarg x b e → FImm x (opcodeOfMemLaneOp p) b (.Vector (.Memarg e))
  | memLaneLane {p : MemLaneOp} : BMemarg b a → FLaneIdx x c e →
      FImm x (opcodeOfMemLaneOp p) (b ++ c) (.Vector (.LaneIdx e))
  | lane {p : LaneOp} : FLaneIdx x b e → FImm x (opcodeOfLaneOp p) b (.Vector (.LaneIdx e))
  | bytes {o : Opcode} : o ∈ [.fd 12, .fd 13] → FBytes 16 x b e → FImm x o b (.Vector (.ReadImmediateBytes e))
  -- control
  | tag : FTagIdx x b e → FImm x (.byte 0x08) b (.Control (.TagIdx e))
  | label {o : Opcode} : o ∈ [.byte 0x0C, .byte 0x0D, .byte 0xD5, .byte 0xD6] → FLabelIdx x b e →
      FImm x o b (.Control (.LabelIdx e))
  | labels : FList FLabelIdx BLabelIdx x b e → FImm x (.byte 0x0E) b (.Control (.DecodeLabelIdxVector e))
  | lastLabel : BList BLabelIdx b l → FLabelIdx x c e →
      FImm x (.byte 0x0E) (b ++ c) (.Control (.LabelIdx e))
  | func {o : Opcode} : o ∈ [.byte 0x10, .byte 0x12] → FFuncIdx x b e → FImm x o b (.Control (.FuncIdx e))
  | type {o : Opcode} : o ∈ [.byte 0x11, .byte 0x13, .byte 0x14, .byte 0x15] → FTypeIdx x b e →
      FImm x o b (.Control (.TypeIdx e))
  | table {o : Opcode} : o ∈ [.byte 0x11, .byte 0x13] → BTypeIdx b i → FTableIdx x c e →
      FImm x o (b ++ c) (.Control (.TableIdx e))
  | castMissing {o : Opcode} : o ∈ [.fb 24, .fb 25] → FImm x o [] (.Control (.ReadCastNullabilityMarker x.toErr))
  | castMarker {o : Opcode} {m : UInt8} : o ∈ [.fb 24, .fb 25] → (∀ v, ¬ BCastop [m] v) →
      FImm x o (m :: b) (.Control (.InvalidCastNullabilityMarker m))
  | castLabel {o : Opcode} : o ∈ [.fb 24, .fb 25] → BCastop b v → FLabelIdx x c e →
      FImm x o (b ++ c) (.Control (.LabelIdx e))
  | castFrom {o : Opcode} : o ∈ [.fb 24, .fb 25] → BCastop b v → BLabelIdx c l → FHeapType x d e →
      FImm x o (b ++ (c ++ d)) (.Control (.HeapType e))
  | castTo {o : Opcode} {h : HeapType} {f : Bytes} : o ∈ [.fb 24, .fb 25] → BCastop b v → BLabelIdx c l →
      BHeapType d h → FHeapType x f e → FImm x o (b ++ (c ++ (d ++ f))) (.Control (.HeapType e))
  -- reference
  | heap {o : Opcode} : o ∈ [.byte 0xD0, .fb 20, .fb 21, .fb 22, .fb 23] → FHeapType x b e →
      FImm x o b (.Reference (.HeapType e))
  | refFunc : FFuncIdx x b e → FImm x (.byte 0xD2) b (.Reference (.FuncIdx e))
  -- aggregate
  | aggType {n : Nat} : n ≤ 19 → n ≠ 15 → FTypeIdx x b e → FImm x (.fb n) b (.Aggregate (.TypeIdx e))
  | field {o : Opcode} : o ∈ [.fb 2, .fb 3, .fb 4, .fb 5] → BTypeIdx b i → FU32 x c e →
      FImm x o (b ++ c) (.Aggregate (.FieldIndex e))
  | length : BTypeIdx b i → FU32 x c e → FImm x (.fb 8) (b ++ c) (.Aggregate (.ArrayFixedLength e))
  | aggData {o : Opcode} : o ∈ [.fb 9, .fb 18] → BTypeIdx b i → FDataIdx x c e →
      FImm x o (b ++ c) (.Aggregate (.DataIdx e))
  | aggElem {o : Opcode} : o ∈ [.fb 10, .fb 19] → BTypeIdx b i → FElemIdx x c e →
      FImm x o (b ++ c) (.Aggregate (.ElemIdx e))
  | copySource : BTypeIdx b i → FTypeIdx x c e → FImm x (.fb 17) (b ++ c) (.Aggregate (.TypeIdx e))
  -- parametric, variable
  | types : FList FValType BValType x b e → FImm x (.byte 0x1C) b (.Parametric (.DecodeList e))
  | «local» {o : Opcode} : o ∈ [.byte 0x20, .byte 0x21, .byte 0x22] → FLocalIdx x b e →
      FImm x o b (.Variable (.LocalIdx e))
  | «global» {o : Opcode} : o ∈ [.byte 0x23, .byte 0x24] → FGlobalIdx x b e → FImm x o b (.Variable (.GlobalIdx e))
  -- table
  | tab {o : Opcode} : o ∈ [.byte 0x25, .byte 0x26, .fc 14, .fc 15, .fc 16, .fc 17] → FTableIdx x b e →
      FImm x o b (.Table (.TableIdx e))
  | tabElem {o : Opcode} : o ∈ [.fc 12, .fc 13] → FElemIdx x b e → FImm x o b (.Table (.ElemIdx e))
  | tabInit : BElemIdx b i → FTableIdx x c e → FImm x (.fc 12) (b ++ c) (.Table (.TableIdx e))
  | tabCopy : BTableIdx b i → FTableIdx x c e → FImm x (.fc 14) (b ++ c) (.Table (.TableIdx e))
  -- memory
  | memory {o : Opcode} : o ∈ [.byte 0x3F, .byte 0x40, .fc 10, .fc 11] → FMemIdx x b e →
      FImm x o b (.Memory (.DecodeMemIdx e))
  | memData {o : Opcode} : o ∈ [.fc 8, .fc 9] → FDataIdx x b e → FImm x o b (.Memory (.DecodeDataIdx e))
  | memInit : BDataIdx b i → FMemIdx x c e → FImm x (.fc 8) (b ++ c) (.Memory (.DecodeMemIdx e))
  | memCopy : BMemIdx b i → FMemIdx x c e → FImm x (.fc 10) (b ++ c) (.Memory (.DecodeMemIdx e))
  -- numeric
  | i32 : FI32 x b e → FImm x (.byte 0x41) b (.Numeric (.DecodeI32 e))
  | i64 : FI64 x b e → FImm x (.byte 0x42) b (.Numeric (.DecodeI64 e))
  | f32 : FF32 x b e → FImm x (.byte 0x43) b (.Numeric (.DecodeF32 e))
  | f64 : FF64 x b e → FImm x (.byte 0x44) b (.Numeric (.DecodeF64 e))

/-- A defect where an instruction, `else` or `end` is expected, before any nested instruction. -/
inductive FOp (x : End) : Bytes → ParseError → Prop
  | missing : FOp x [] (.ReadOpcode x.toErr)
  | unknown : UnassignedByte m → FOp x (m :: b) (.InvalidOpcode m)
  | fbNumber : FU32 x b e → FOp x (0xFB :: b) (.Reference (.ReadSubOpcode e))
  | fcNumber : FU32 x b e → FOp x (0xFC :: b) (.Numeric (.ReadOpcode e))
  | fdNumber : FU32 x b e → FOp x (0xFD :: b) (.Vector (.ReadOpcode e))
  | fbUnknown {n : UInt32} : BU32 b n → Unassigned (.fb n.toNat) →
      FOp x (0xFB :: (b ++ t)) (.InvalidMarkerByteAfterFB n)
  | fcUnknown {n : UInt32} : BU32 b n → Unassigned (.fc n.toNat) →
      FOp x (0xFC :: (b ++ t)) (.InvalidMarkerByteAfterFC n)
  | fdUnknown {n : UInt32} : BU32 b n → Unassigned (.fd n.toNat) →
      FOp x (0xFD :: (b ++ t)) (.Vector (.InvalidOpcode n))
  | imm {o : Opcode} : BOpcode b o → FImm x o c e → FOp x (b ++ c) e
  | blockType {m : UInt8} : m ∈ [0x02, 0x03, 0x04, 0x1F] → FBlockType x b e →
      FOp x (m :: b) (.Control (.BlockType e))
  | catches : BBlockType b w → FList FCatch BCatch x c e →
      FOp x (0x1F :: (b ++ c)) (.Control (.DecodeCatchListError e))

/-- An expression: the defect is at some depth `c` of nesting (Spec/Context.lean), behind complete
instructions and openers `p`. -/
inductive FExpr (x : End) : Bytes → ParseExpressionError → Prop
  | op {c : Ctx} : Within .expr c p → FOp x b e → FExpr x (p ++ b) (.ParseInstruction e)
  | «else» {c : Ctx} : Within .expr c p → c ≠ .then → c ≠ .expr →
      FExpr x (p ++ 0x05 :: b) (.ParseInstruction (.Control .UnexpectedElse))
  | topElse {l : List Instr} : BInstrs p l → FExpr x (p ++ 0x05 :: b) .UnexpectedElse

/-! ### Entries of sections -/

inductive FImport (x : End) : Bytes → DecodeImportError → Prop
  | «module» : FName x b e → FImport x b (.DecodeModuleName e)
  | item : BName b s → FName x c e → FImport x (b ++ c) (.DecodeItemName e)
  | type : BName b s → BName c t → FExternType x d e → FImport x (b ++ (c ++ d)) (.DecodeExternType e)

/-- The kind byte of an export is judged after the index that follows it has been read. -/
inductive FExport (x : End) : Bytes → DecodeExportError → Prop
  | name : FName x b e → FExport x b (.DecodeName e)
  | missing : BName b s → FExport x b (.ReadDescriptorMarkerByte x.toErr)
  | index {m : UInt8} : BName b s → FU32 x c e → FExport x (b ++ m :: c) (.DecodeIndex e)
  | kind {m : UInt8} {i : UInt32} : BName b s → BU32 c i → m ∉ [0x00, 0x01, 0x02, 0x03, 0x04] →
      FExport x (b ++ m :: (c ++ t)) (.InvalidDescriptorMarkerByte ⟨m⟩)

inductive FGlobal (x : End) : Bytes → DecodeGlobalError → Prop
  | type : FGlobalType x b e → FGlobal x b (.DecodeGlobalType e)
  | init : BGlobalType b t → FExpr x c e → FGlobal x (b ++ c) (.DecodeInit e)

inductive FTable (x : End) : Bytes → DecodeTableError → Prop
  | missing : b ∈ [[], [0x40]] → FTable x b (.Io x.toErr)
  | marker {m : UInt8} : m ≠ 0x00 → FTable x (0x40 :: m :: b) (.UnexpectedMarkerByte m)
  | initType : FTableType x b e → FTable x (0x40 :: 0x00 :: b) (.DecodeTableType e)
  | init : BTableType b t → FExpr x c e → FTable x (0x40 :: 0x00 :: (b ++ c)) (.DecodeExpression e)
  | type {m : UInt8} : m ≠ 0x40 → FTableType x (m :: b) e → FTable x (m :: b) (.DecodeTableType e)

inductive FData (x : End) : Bytes → DecodeDataSegmentError → Prop
  | flag : FU32 x b e → FData x b (.DecodeBitfield e)
  | flagRange {n : UInt32} : BU32 b n → 2 < n.toNat → FData x (b ++ t) (.InvalidBitfield n)
  | mem : BU 32 b 2 → FMemIdx x c e → FData x (b ++ c) (.DecodeMemIdx e)
  | offset0 : BU 32 b 0 → FExpr x c e → FData x (b ++ c) (.DecodeOffsetExpr e)
  | offset2 : BU 32 b 2 → BMemIdx c i → FExpr x d e → FData x (b ++ (c ++ d)) (.DecodeOffsetExpr e)
  | init0 {l : Expr} : BU 32 b 0 → BExpr c l → FByteVec x d e → FData x (b ++ (c ++ d)) (.DecodeInitVector e)
  | init1 : BU 32 b 1 → FByteVec x c e → FData x (b ++ c) (.DecodeInitVector e)
  | init2 {l : Expr} {f : Bytes} : BU 32 b 2 → BMemIdx c i → BExpr d l → FByteVec x f e →
      FData x (b ++ (c ++ (d ++ f))) (.DecodeInitVector e)

inductive FElemKind (x : End) : Bytes → DecodeElementKindError → Prop
  | missing : FElemKind x [] (.Io x.toErr)
  | kind {m : UInt8} : m ≠ 0x00 → FElemKind x (m :: b) (.InvalidElemKind m)

/-- (The offset of form 2 has an error variant of its own.) -/
inductive FElem (x : End) : Bytes → DecodeElementError → Prop
  | flag : FU32 x b e → FElem x b (.DecodeBitfield e)
  | flagRange {n : UInt32} : BU32 b n → 7 < n.toNat → FElem x (b ++ t) (.InvalidBitfield n)
  | table {n : Nat} : BU 32 b n → n ∈ [2, 6] → FTableIdx x c e → FElem x (b ++ c) (.DecodeTableIdx e)
  | offset04 {n : Nat} : BU 32 b n → n ∈ [0, 4] → FExpr x c e →
      FElem x (b ++ c) (.DecodeOffsetExpression e)
  | offset6 : BU 32 b 6 → BTableIdx c i → FExpr x d e → FElem x (b ++ (c ++ d)) (.DecodeOffsetExpression e)
  | offset2 : BU 32 b 2 → BTableIdx c i → FExpr x d e → FElem x (b ++ (c ++ d)) (.DecodeElementExpression e)
  | kind13 {n : Nat} : BU 32 b n → n ∈ [1, 3] → FElemKind x c e → FElem x (b ++ c) (.DecodeElementKind e)
  | kind2 {l : Expr} {f : Bytes} : BU 32 b 2 → BTableIdx c i → BExpr d l → FElemKind x f e →
      FElem x (b ++ (c ++ (d ++ f))) (.DecodeElementKind e)
  | type57 {n : Nat} : BU 32 b n → n ∈ [5, 7] → FRefType x c e → FElem x (b ++ c) (.DecodeReferenceType e)
  | type6 {l : Expr} {f : Bytes} : BU 32 b 6 → BTableIdx c i → BExpr d l → FRefType x f e →
      FElem x (b ++ (c ++ (d ++ f))) (.DecodeReferenceType e)
  | funcs0 {l : Expr} : BU 32 b 0 → BExpr c l → FList FFuncIdx BFuncIdx x d e →
      FElem x (b ++ (c ++ d)) (.DecodeFuncIdxVector e)
  | funcs13 {n : Nat} : BU 32 b n → n ∈ [1, 3] → FList FFuncIdx BFuncIdx x c e →
      FElem x (b ++ 0x00 :: c) (.DecodeFuncIdxVector e)
  | funcs2 {l : Expr} {f : Bytes} : BU 32 b 2 → BTableIdx c i → BExpr d l →
      FList FFuncIdx BFuncIdx x f e → FElem x (b ++ (c ++ (d ++ 0x00 :: f))) (.DecodeFuncIdxVector e)
  | exprs4 {l : Expr} : BU 32 b 4 → BExpr c l → FList FExpr BExpr x d e →
      FElem x (b ++ (c ++ d)) (.DecodeInit e)
  | exprs57 {n : Nat} : BU 32 b n → n ∈ [5, 7] → BRefType c t → FList FExpr BExpr x d e →
      FElem x (b ++ (c ++ d)) (.DecodeInit e)
  | exprs6 {l : Expr} {f g : Bytes} : BU 32 b 6 → BTableIdx c i → BExpr d l → BRefType f t →
      FList FExpr BExpr x g e → FElem x (b ++ (c ++ (d ++ (f ++ g)))) (.DecodeInit e)

/-- The list of runs of locals of a function.  `l` are the runs before the defect. -/
inductive FLocals (x : End) : Bytes → DecodeListError DecodeCodeLocalsError → Prop
  | length : FU32 x b e → FLocals x b (.DecodeLength e)
  | count {n i : UInt32} : BU32 b n → BSeq BLocals c l → i.toNat = l.length → l.length < n.toNat →
      (localsOf l).length < 2 ^ 32 → FU32 x d e →
      FLocals x (b ++ (c ++ d)) (.ParseElement i (.DecodeLocalsCount e))
  | tooMany {n i k : UInt32} {s : UInt64} : BU32 b n → BSeq BLocals c l → i.toNat = l.length →
      l.length < n.toNat → (localsOf l).length < 2 ^ 32 → BU32 d k →
      s.toNat = (localsOf l).length + k.toNat → 2 ^ 32 ≤ s.toNat →
      FLocals x (b ++ (c ++ (d ++ t))) (.ParseElement i (.LocalsCountOutOfBound 4294967295 s))
  | type {n i k : UInt32} {f : Bytes} : BU32 b n → BSeq BLocals c l → i.toNat = l.length →
      l.length < n.toNat → BU32 d k → (localsOf l).length + k.toNat < 2 ^ 32 → FValType x f e →
      FLocals x (b ++ (c ++ (d ++ f))) (.ParseElement i (.DecodeLocalValType e))

/-- The end seen by someone who may read at most `n` of the bytes `b`. -/
def limitEnd (n : Nat) (b : Bytes) (x : End) : End := if n ≤ b.length then .eof else x

/-- An entry of the code section: its declared size `n` limits what is read of it. -/
inductive FCode (x : End) : Bytes → DecodeCodeError → Prop
  | size : FU32 x b e → FCode x b (.DecodeFunctionSize e)
  | locals {n : UInt32} : BU32 b n → FLocals (limitEnd n.toNat c x) (c.take n.toNat) e →
      FCode x (b ++ c) (.DecodeLocalsVector e)
  | body {n : UInt32} : BU32 b n → BList BLocals d l → (localsOf l).length < 2 ^ 32 →
      c.take n.toNat = d ++ t → FExpr (limitEnd n.toNat c x) t e →
      FCode x (b ++ c) (.DecodeFunctionBody e)
  | leftover {n : UInt32} {k m : UInt64} {v : CodeEntry} : BU32 b n → BFunc c v →
      m.toNat = c.length → k.toNat = n.toNat - c.length → c.length < n.toNat →
      FCode x (b ++ (c ++ t)) (.EntrySizeMismatch n k m)

/-! ### Sections and modules -/

/-- The contents of a section of the given kind. -/
inductive FContents (x : End) : SectionKind → Bytes → DecodeModuleError → Prop
  | customName : FName x b e → FContents x .Custom b (.DecodeCustomSection (.DecodeName e))
  | customRead : BName b s → x = .fail e → FContents x .Custom (b ++ c) (.DecodeCustomSection (.Io e))
  | type : FList FRecType BRecType x b e → FContents x .Type b (.DecodeTypeSection (.DecodeList e))
  | «import» : FList FImport BImport x b e → FContents x .Import b (.DecodeImportSection (.DecodeList e))
  | function : FList FTypeIdx BTypeIdx x b e →
      FContents x .Function b (.DecodeFunctionSection (.DecodeList e))
  | table : FList FTable BTable x b e → FContents x .Table b (.DecodeTableSection (.DecodeList e))
  | memory : FList FMemType BMemType x b e → FContents x .Memory b (.DecodeMemorySection (.DecodeList e))
  | tag : FList FTagType BTagType x b e → FContents x .Tag b (.DecodeTagSection (.DecodeList e))
  | «global» : FList FGlobal BGlobal x b e → FContents x .Global b (.DecodeGlobalSection (.DecodeList e))
  | «export» : FList FExport BExport x b e → FContents x .Export b (.DecodeExportSection (.DecodeList e))
  | start : FFuncIdx x b e → FContents x .Start b (.DecodeStartSection ⟨e⟩)
  | element : FList FElem BElem x b e → FContents x .Element b (.DecodeElementSection (.DecodeList e))
  | dataCount : FU32 x b e →
      FContents x .DataCount b (.DecodeDatacountSection (.DecodeDataSegmentCount e))
  | code : FList FCode BCode x b e → FContents x .Code b (.DecodeCodeSection (.DecodeList e))
  | data : FList FData BData x b e → FContents x .Data b (.DecodeDataSection (.DecodeList e))

/-- A section header; the end of the input is no defect there. -/
inductive FHeader (x : End) : Bytes → DecodeSectionHeaderError → Prop
  | missing : x.toErr ≠ .unexpectedEof → FHeader x [] (.ReadSectionIdByte x.toErr)
  | id : (∀ k, sectionId k ≠ m) → FHeader x (m :: b) (.InvalidSectionId ⟨m⟩)
  | size {k : SectionKind} : FU32 x b e → FHeader x (sectionId k :: b) (.DecodeSectionSize e)

/-- A module.  `s` are the sections before the defect. -/
inductive FModule (x : End) : Bytes → DecodeModuleError → Prop
  | preambleShort : b.length < 8 → FModule x b (.ParsePreamble (.Io x.toErr))
  | preamble : b.length = 8 → b ≠ preamble → FModule x (b ++ t) (.ParsePreamble (.Unexpected b))
  | header : Behind b s c → FHeader x c e → FModule x b (.DecodeSectionHeader e)
  | duplicate : AtSection b s k n c → (nonCustom s).getLast? = some k →
      FModule x b (.DuplicateSection k)
  | order : AtSection b s k n c → (nonCustom s).getLast? = some p → Before k p →
      FModule x b (.SectionOutOfOrder k p)
  | contents : AtSection b s k n c → MayFollow s k →
      FContents (limitEnd n.toNat c x) k (c.take n.toNat) e → FModule x b e
  | codeCount : AtSection b s .Code n (c ++ t) → MayFollow s .Code → BContents c (.code l) →
      c.length ≤ n.toNat → l.length ≠ (typeIdxsOf s).length →
      FModule x b (.CodeFuncEntriesLenMismatch l.length (typeIdxsOf s).length)
  | dataCount {m : UInt32} : AtSection b s .Data n (c ++ t) → MayFollow s .Data →
      BContents c (.data l) → c.length ≤ n.toNat → dataCountOf s = some m → l.length ≠ m.toNat →
      FModule x b (.DataCountMismatch l.length m)
  | size {v : Section} {g : UInt64} : AtSection b s k n (c ++ t) → k ≠ .Custom → v.kind = k →
      BContents c v → Acceptable (s ++ [v]) → g.toNat = c.length → c.length < n.toNat →
      FModule x b (.SectionSizeMismatch k n g)
  | customSize {v : CustomSection} {g : UInt64} : AtSection b s .Custom n c → x = .eof →
      BCustom c v → g.toNat = c.length → c.length < n.toNat →
      FModule x b (.SectionSizeMismatch .Custom n g)
  | noCode : AtEnd b s → x.toErr = .unexpectedEof → (∀ v ∈ s, v.kind ≠ .Code) → typeIdxsOf s ≠ [] →
      FModule x b (.CodeFuncEntriesLenMismatch 0 (typeIdxsOf s).length)
  | noData {n : UInt32} : AtEnd b s → x.toErr = .unexpectedEof →
      (typeIdxsOf s).length = (codesOf s).length → (∀ v ∈ s, v.kind ≠ .Data) →
      dataCountOf s = some n → n ≠ 0 → FModule x b (.DataCountDatasLenMismatch 0 n)
  | noDataCount : AtEnd b s → x.toErr = .unexpectedEof →
      (typeIdxsOf s).length = (codesOf s).length → dataCountOf s = none →
      (∃ c ∈ codesOf s, ∃ i ∈ c.body, UsesData i) → FModule x b .DataIndexWithoutDataCount

end Wadec.Spec
