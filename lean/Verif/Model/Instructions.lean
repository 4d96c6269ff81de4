import Verif.Model.Types
import Verif.Model.Opcodes

/-! Model of src/decode/instructions.rs and of `decode_expr` (src/decode/helpers.rs:23-66).

`match opcode` is written as a chain of `if`s in source order, except that the arms without
immediates come last, as a lookup in the generated tables of Model/Opcodes.lean. -/

namespace Wadec

variable {R : Type} [Read R]

/-- src/decode/instructions.rs:1037-1055 `Memarg::decode` -/
def Memarg.decode : Dec R MemargError Memarg := do
  let n ← decodeU32.mapErr MemargError.Align
  if n < 64 then do
    let offset ← decodeU64.mapErr MemargError.Offset
    pure ⟨⟨0⟩, n, offset⟩
  else if n < 128 then do
    let mem_idx ← MemIdx.decode.mapErr MemargError.MemIdx
    let offset ← decodeU64.mapErr MemargError.Offset
    pure ⟨mem_idx, n - 64, offset⟩
  else Dec.err (.InvalidFlagsBit n)

/-- src/decode/instructions.rs:1067-1069 `LaneIdx::decode` -/
def LaneIdx.decode : Dec R LaneIdxError LaneIdx := do
  let b ← readByte.mapErr LaneIdxError.mk
  pure ⟨b⟩

/-- src/decode/instructions.rs:1101-1109, the type index of a block type -/
def blockTypeIndex : Dec R BlockTypeError BlockType := do
  let x ← decodeS33.mapErr BlockTypeError.DecodeIndex
  if x.toInt < 0 then Dec.err (.NegativeTypeIndex x)
  else do
    let x ← i64ToU32 x
    pure (.I x)

/-- src/decode/instructions.rs:1085-1110 `BlockType::decode`: any failure of `ValType::decode` is
discarded, and the index is read from `b` followed by whatever `ValType::decode` left. -/
def BlockType.decode : Dec R BlockTypeError BlockType := do
  let b ← readByte.mapErr BlockTypeError.ReadMarkerByte
  if b = 0x40 then pure .Empty
  else Dec.withChain b (Dec.orElseDiscard ValType.decode .T (Dec.withChain b blockTypeIndex))

/-- src/decode/instructions.rs:1129-1147 `Catch::decode` -/
def Catch.decode : Dec R CatchError Wadec.Catch := do
  let marker ← readByte.mapErr CatchError.ReadMarkerByte
  if marker = 0x00 then do
    let x ← TagIdx.decode.mapErr CatchError.DecodeTagIdx
    let l ← LabelIdx.decode.mapErr CatchError.DecodeLabelIdx
    pure (.Catch x l)
  else if marker = 0x01 then do
    let x ← TagIdx.decode.mapErr CatchError.DecodeTagIdx
    let l ← LabelIdx.decode.mapErr CatchError.DecodeLabelIdx
    pure (.CatchRef x l)
  else if marker = 0x02 then do
    let l ← LabelIdx.decode.mapErr CatchError.DecodeLabelIdx
    pure (.CatchAll l)
  else if marker = 0x03 then do
    let l ← LabelIdx.decode.mapErr CatchError.DecodeLabelIdx
    pure (.CatchAllRef l)
  else Dec.err (.InvalidMarkerByte marker)

/-- src/decode/instructions.rs:1150-1158 `decode_castop` -/
def decodeCastop : Dec R ControlError (Bool × Bool) := do
  let n ← readByte.mapErr ControlError.ReadCastNullabilityMarker
  if n = 0x00 then pure (false, false)
  else if n = 0x01 then pure (true, false)
  else if n = 0x02 then pure (false, true)
  else if n = 0x03 then pure (true, true)
  else Dec.err (.InvalidCastNullabilityMarker n)

/-- src/decode/instructions.rs:1015-1019 `ParseResult` -/
inductive ParseResult where
  | Instruction (i : Instr)
  | Else
  | End
  deriving Repr

/-! The immediates that occur in several arms, with the error conversions of the arm
(`.map_err(..)?`). -/

/-- src/decode/instructions.rs:336-409: `TypeIdx::decode(reader).map_err(AggregateError::TypeIdx)?` -/
def aggType : Dec R ParseError TypeIdx :=
  TypeIdx.decode.mapErr (fun e => .Aggregate (.TypeIdx e))
/-- src/decode/instructions.rs:343-358: `decode_u32(reader).map_err(AggregateError::FieldIndex)?` -/
def aggField : Dec R ParseError UInt32 :=
  decodeU32.mapErr (fun e => .Aggregate (.FieldIndex e))
/-- src/decode/instructions.rs:369: `decode_u32(reader).map_err(AggregateError::ArrayFixedLength)?` -/
def aggLen : Dec R ParseError UInt32 :=
  decodeU32.mapErr (fun e => .Aggregate (.ArrayFixedLength e))
/-- src/decode/instructions.rs:374, 405: `DataIdx::decode(reader).map_err(AggregateError::DataIdx)?` -/
def aggData : Dec R ParseError DataIdx :=
  DataIdx.decode.mapErr (fun e => .Aggregate (.DataIdx e))
/-- src/decode/instructions.rs:379, 410: `ElemIdx::decode(reader).map_err(AggregateError::ElemIdx)?` -/
def aggElem : Dec R ParseError ElemIdx :=
  ElemIdx.decode.mapErr (fun e => .Aggregate (.ElemIdx e))
/-- src/decode/instructions.rs:323, 421: `HeapType::decode(reader).map_err(ReferenceError::HeapType)?` -/
def refHeap : Dec R ParseError HeapType :=
  HeapType.decode.mapErr (fun e => .Reference (.HeapType e))
/-- src/decode/instructions.rs:441-442: `HeapType::decode(reader).map_err(ControlError::HeapType)?` -/
def ctlHeap : Dec R ParseError HeapType :=
  HeapType.decode.mapErr (fun e => .Control (.HeapType e))
/-- src/decode/instructions.rs:267-272, 313, 316, 440: `LabelIdx::decode(reader).map_err(ControlError::LabelIdx)?` -/
def ctlLabel : Dec R ParseError LabelIdx :=
  LabelIdx.decode.mapErr (fun e => .Control (.LabelIdx e))
/-- src/decode/instructions.rs:276, 283: `FuncIdx::decode(reader).map_err(ControlError::FuncIdx)?` -/
def ctlFunc : Dec R ParseError FuncIdx :=
  FuncIdx.decode.mapErr (fun e => .Control (.FuncIdx e))
/-- src/decode/instructions.rs:278, 286, 290, 292: `TypeIdx::decode(reader).map_err(ControlError::TypeIdx)?` -/
def ctlType : Dec R ParseError TypeIdx :=
  TypeIdx.decode.mapErr (fun e => .Control (.TypeIdx e))
/-- src/decode/instructions.rs:279, 287: `TableIdx::decode(reader).map_err(ControlError::TableIdx)?` -/
def ctlTable : Dec R ParseError TableIdx :=
  TableIdx.decode.mapErr (fun e => .Control (.TableIdx e))
/-- src/decode/instructions.rs:481-482, 690-705: `TableIdx::decode(reader).map_err(TableError::TableIdx)?` -/
def tabTable : Dec R ParseError TableIdx :=
  TableIdx.decode.mapErr (fun e => .Table (.TableIdx e))
/-- src/decode/instructions.rs:689, 693: `ElemIdx::decode(reader).map_err(TableError::ElemIdx)?` -/
def tabElem : Dec R ParseError ElemIdx :=
  ElemIdx.decode.mapErr (fun e => .Table (.ElemIdx e))
/-- src/decode/instructions.rs:515, 519, 671-683: `MemIdx::decode(reader).map_err(MemoryError::DecodeMemIdx)?` -/
def memMem : Dec R ParseError MemIdx :=
  MemIdx.decode.mapErr (fun e => .Memory (.DecodeMemIdx e))
/-- src/decode/instructions.rs:670, 675: `DataIdx::decode(reader).map_err(MemoryError::DecodeDataIdx)?` -/
def memData : Dec R ParseError DataIdx :=
  DataIdx.decode.mapErr (fun e => .Memory (.DecodeDataIdx e))
/-- src/decode/instructions.rs:465-471: `LocalIdx::decode(reader).map_err(VariableError::LocalIdx)?` -/
def varLocal : Dec R ParseError LocalIdx :=
  LocalIdx.decode.mapErr (fun e => .Variable (.LocalIdx e))
/-- src/decode/instructions.rs:474, 477: `GlobalIdx::decode(reader).map_err(VariableError::GlobalIdx)?` -/
def varGlobal : Dec R ParseError GlobalIdx :=
  GlobalIdx.decode.mapErr (fun e => .Variable (.GlobalIdx e))
/-- src/decode/instructions.rs:715, 735: `Memarg::decode(reader).map_err(VectorError::Memarg)?` -/
def vecMemarg : Dec R ParseError Memarg :=
  Memarg.decode.mapErr (fun e => .Vector (.Memarg e))
/-- src/decode/instructions.rs:736, 764: `LaneIdx::decode(reader).map_err(VectorError::LaneIdx)?` -/
def vecLane : Dec R ParseError LaneIdx :=
  LaneIdx.decode.mapErr (fun e => .Vector (.LaneIdx e))
/-- src/decode/instructions.rs:752-753, 759-760: `reader.read_exact(&mut buf).map_err(VectorError::ReadImmediateBytes)?` with
`buf: [u8; 16]` -/
def vecBytes : Dec R ParseError Bytes16 := do
  let buf ← (readExact 16).mapErr (fun e => ParseError.Vector (.ReadImmediateBytes e))
  if h : buf.length = 16 then pure ⟨buf, h⟩ else Dec.panic

/-- src/decode/instructions.rs:331-461: the `match op` after the prefix 0xFB -/
def parseFB (op : UInt32) : Dec R ParseError Instr :=
  if op = 0 then do let t ← aggType; pure (.StructNew t)
  else if op = 1 then do let t ← aggType; pure (.StructNewDefault t)
  else if op = 2 then do let t ← aggType; let f ← aggField; pure (.StructGet t f)
  else if op = 3 then do let t ← aggType; let f ← aggField; pure (.StructGetS t f)
  else if op = 4 then do let t ← aggType; let f ← aggField; pure (.StructGetU t f)
  else if op = 5 then do let t ← aggType; let f ← aggField; pure (.StructSet t f)
  else if op = 6 then do let t ← aggType; pure (.ArrayNew t)
  else if op = 7 then do let t ← aggType; pure (.ArrayNewDefault t)
  else if op = 8 then do let t ← aggType; let n ← aggLen; pure (.ArrayNewFixed t n)
  else if op = 9 then do let t ← aggType; let d ← aggData; pure (.ArrayNewData t d)
  else if op = 10 then do let t ← aggType; let e ← aggElem; pure (.ArrayNewElem t e)
  else if op = 11 then do let t ← aggType; pure (.ArrayGet t)
  else if op = 12 then do let t ← aggType; pure (.ArrayGetS t)
  else if op = 13 then do let t ← aggType; pure (.ArrayGetU t)
  else if op = 14 then do let t ← aggType; pure (.ArraySet t)
  else if op = 16 then do let t ← aggType; pure (.ArrayFill t)
  else if op = 17 then do let dst ← aggType; let src ← aggType; pure (.ArrayCopy dst src)
  else if op = 18 then do let t ← aggType; let d ← aggData; pure (.ArrayInitData t d)
  else if op = 19 then do let t ← aggType; let e ← aggElem; pure (.ArrayInitElem t e)
  else if 20 ≤ op ∧ op ≤ 23 then do
    let ht ← refHeap
    if op = 20 then pure (.RefTest ⟨false, ht⟩)
    else if op = 21 then pure (.RefTest ⟨true, ht⟩)
    else if op = 22 then pure (.RefCast ⟨false, ht⟩)
    else if op = 23 then pure (.RefCast ⟨true, ht⟩)
    else Dec.panic                                   -- `unreachable!()`
  else if op = 24 ∨ op = 25 then do
    let (nullable1, nullable2) ← decodeCastop.mapErr ParseError.Control
    let l ← ctlLabel
    let ht1 ← ctlHeap
    let ht2 ← ctlHeap
    if op = 24 then pure (.BrOnCast l ⟨nullable1, ht1⟩ ⟨nullable2, ht2⟩)
    else pure (.BrOnCastFail l ⟨nullable1, ht1⟩ ⟨nullable2, ht2⟩)
  else
    match plainFBTable.lookup op with
    | some p => pure (.plain p)
    | none => Dec.err (.InvalidMarkerByteAfterFB op)

/-- src/decode/instructions.rs:657-710: the `match` after the prefix 0xFC -/
def parseFC (op : UInt32) : Dec R ParseError Instr :=
  if op = 8 then do let y ← memData; let x ← memMem; pure (.MemoryInit x y)
  else if op = 9 then do let x ← memData; pure (.DataDrop x)
  else if op = 10 then do let x1 ← memMem; let x2 ← memMem; pure (.MemoryCopy x1 x2)
  else if op = 11 then do let x ← memMem; pure (.MemoryFill x)
  else if op = 12 then do let y ← tabElem; let x ← tabTable; pure (.TableInit x y)
  else if op = 13 then do let x ← tabElem; pure (.ElemDrop x)
  else if op = 14 then do let x ← tabTable; let y ← tabTable; pure (.TableCopy x y)
  else if op = 15 then do let x ← tabTable; pure (.TableGrow x)
  else if op = 16 then do let x ← tabTable; pure (.TableSize x)
  else if op = 17 then do let x ← tabTable; pure (.TableFill x)
  else
    match plainFCTable.lookup op with
    | some p => pure (.plain p)
    | none => Dec.err (.InvalidMarkerByteAfterFC op)

/-- src/decode/instructions.rs:713-1007: the `match` after the prefix 0xFD -/
def parseFD (op : UInt32) : Dec R ParseError Instr :=
  if op ≤ 11 ∨ op = 92 ∨ op = 93 then do
    let m ← vecMemarg
    match memFDTable.lookup op with
    | some p => pure (.mem p m)
    | none => Dec.panic                              -- `unreachable!()`
  else if 84 ≤ op ∧ op ≤ 91 then do
    let m ← vecMemarg
    let l ← vecLane
    match memLaneFDTable.lookup op with
    | some p => pure (.memLane p m l)
    | none => Dec.panic                              -- `unreachable!()`
  else if op = 12 then do let v ← vecBytes; pure (.V128Const v)
  else if op = 13 then do let v ← vecBytes; pure (.I8x16Shuffle v)
  else if 21 ≤ op ∧ op ≤ 34 then do
    let l ← vecLane
    match laneFDTable.lookup op with
    | some p => pure (.lane p l)
    | none => Dec.panic                              -- `unreachable!()`
  else
    match plainFDTable.lookup op with
    | some p => pure (.plain p)
    | none => Dec.err (.Vector (.InvalidOpcode op))

/-- The arms of `Instruction::parse` (src/decode/instructions.rs:202-1009) that do not recurse,
for an opcode other than `end` (0x0B), `else` (0x05), 0x02..=0x04 and 0x1F. -/
def parseSimple (op : UInt8) : Dec R ParseError Instr :=
  if op = 0x1B then pure (.Select none)
  else if op = 0x1C then do
    let ts ← (decodeList ValType.decode).mapErr (fun e => ParseError.Parametric (.DecodeList e))
    pure (.Select (some ts))
  else if op = 0x08 then do
    let x ← TagIdx.decode.mapErr (fun e => ParseError.Control (.TagIdx e))
    pure (.Throw x)
  else if op = 0x0C then do let l ← ctlLabel; pure (.Br l)
  else if op = 0x0D then do let l ← ctlLabel; pure (.BrIf l)
  else if op = 0x0E then do
    let l ← (decodeList LabelIdx.decode).mapErr
      (fun e => ParseError.Control (.DecodeLabelIdxVector e))
    let ln ← ctlLabel
    pure (.BrTable l ln)
  else if op = 0x10 then do let x ← ctlFunc; pure (.Call x)
  else if op = 0x11 then do let y ← ctlType; let x ← ctlTable; pure (.CallIndirect x y)
  else if op = 0x12 then do let x ← ctlFunc; pure (.ReturnCall x)
  else if op = 0x13 then do let y ← ctlType; let x ← ctlTable; pure (.ReturnCallIndirect x y)
  else if op = 0x14 then do let x ← ctlType; pure (.CallRef x)
  else if op = 0x15 then do let x ← ctlType; pure (.ReturnCallRef x)
  else if op = 0xD5 then do let l ← ctlLabel; pure (.BrOnNull l)
  else if op = 0xD6 then do let l ← ctlLabel; pure (.BrOnNonNull l)
  else if op = 0xD0 then do let ht ← refHeap; pure (.RefNull ht)
  else if op = 0xD2 then do
    let x ← FuncIdx.decode.mapErr (fun e => ParseError.Reference (.FuncIdx e))
    pure (.RefFunc x)
  else if op = 0xFB then do
    let sub ← decodeU32.mapErr (fun e => ParseError.Reference (.ReadSubOpcode e))
    parseFB sub
  else if op = 0x20 then do let x ← varLocal; pure (.LocalGet x)
  else if op = 0x21 then do let x ← varLocal; pure (.LocalSet x)
  else if op = 0x22 then do let x ← varLocal; pure (.LocalTee x)
  else if op = 0x23 then do let x ← varGlobal; pure (.GlobalGet x)
  else if op = 0x24 then do let x ← varGlobal; pure (.GlobalSet x)
  else if op = 0x25 then do let x ← tabTable; pure (.TableGet x)
  else if op = 0x26 then do let x ← tabTable; pure (.TableSet x)
  else if 0x28 ≤ op ∧ op ≤ 0x3E then do
    let m ← Memarg.decode.mapErr (fun e => ParseError.Memory (.DecodeMemarg e))
    match memTable.lookup op with
    | some p => pure (.mem p m)
    | none => Dec.panic                              -- `unreachable!()`
  else if op = 0x3F then do let x ← memMem; pure (.MemorySize x)
  else if op = 0x40 then do let x ← memMem; pure (.MemoryGrow x)
  else if op = 0x41 then do
    let v ← decodeI32.mapErr (fun e => ParseError.Numeric (.DecodeI32 e))
    pure (.I32Const v)
  else if op = 0x42 then do
    let v ← decodeI64.mapErr (fun e => ParseError.Numeric (.DecodeI64 e))
    pure (.I64Const v)
  else if op = 0x43 then do
    let v ← decodeF32.mapErr (fun e => ParseError.Numeric (.DecodeF32 e))
    pure (.F32Const v)
  else if op = 0x44 then do
    let v ← decodeF64.mapErr (fun e => ParseError.Numeric (.DecodeF64 e))
    pure (.F64Const v)
  else if op = 0xFC then do
    let sub ← decodeU32.mapErr (fun e => ParseError.Numeric (.ReadOpcode e))
    parseFC sub
  else if op = 0xFD then do
    let sub ← decodeU32.mapErr (fun e => ParseError.Vector (.ReadOpcode e))
    parseFD sub
  else
    match plainByteTable.lookup op with
    | some p => pure (.plain p)
    | none => Dec.err (.InvalidOpcode op)

/-- The loops `loop { parsed = Self::parse(reader)?; match parsed { .. } }` of
src/decode/instructions.rs:226-239, 248-257 and 301-308: push instructions until `end`, or, if
`allowElse`, until `else`; an `else` elsewhere is an error.  Returns the instructions and the last
`parsed`.  `p` is `Self::parse`; the `Nat` is the step budget (model artefact). -/
def parseSeq (p : Dec R ParseError ParseResult) :
    Nat → Bool → List Instr → Dec R ParseError (List Instr × ParseResult)
  | 0, _, _ => Dec.outOfFuel
  | n + 1, allowElse, acc => do
    let parsed ← p
    match parsed with
    | .Instruction i => parseSeq p n allowElse (acc ++ [i])
    | .End => pure (acc, .End)
    | .Else => if allowElse then pure (acc, .Else) else Dec.err (.Control .UnexpectedElse)

/-- src/decode/instructions.rs:203-1012 `Instruction::parse`.  The first argument bounds the
recursion (model artefact; Rust recurses on the call stack). -/
def parse : Nat → Dec R ParseError ParseResult
  | 0 => Dec.outOfFuel
  | n + 1 => do
    let opcode ← (readExact 1).mapErr ParseError.ReadOpcode
    match opcode with
    | [op] =>
      if op = 0x0B then pure .End
      else if op = 0x05 then pure .Else
      else if 0x02 ≤ op ∧ op ≤ 0x04 then do
        let bt ← BlockType.decode.mapErr (fun e => ParseError.Control (.BlockType e))
        let (in1, parsed) ← parseSeq (parse n) n (op == 0x04) []
        if op = 0x02 then pure (.Instruction (.Block bt in1))
        else if op = 0x03 then pure (.Instruction (.Loop bt in1))
        else if op = 0x04 then
          match parsed with
          | .End => pure (.Instruction (.If bt in1 none))
          | .Else => do
            let (in2, _) ← parseSeq (parse n) n false []
            pure (.Instruction (.If bt in1 (some in2)))
          | .Instruction _ => Dec.panic              -- `unreachable!()`
        else Dec.panic                               -- `unreachable!()`
      else if op = 0x1F then do
        let bt ← BlockType.decode.mapErr (fun e => ParseError.Control (.BlockType e))
        let c ← (decodeList Catch.decode).mapErr
          (fun e => ParseError.Control (.DecodeCatchListError e))
        let (ins, _) ← parseSeq (parse n) n false []
        pure (.Instruction (.TryTable bt c ins))
      else do
        let i ← parseSimple op
        pure (.Instruction i)
    | _ => Dec.panic                                 -- `opcode[0]` of a one-byte array

mutual
/-- src/decode/helpers.rs:47-66 `instruction_contains_data_index` -/
def containsDataIdx : Instr → Bool
  | .MemoryInit _ _ => true
  | .DataDrop _ => true
  | .ArrayNewData _ _ => true
  | .ArrayInitData _ _ => true
  | .Block _ body => anyContainsDataIdx body
  | .Loop _ body => anyContainsDataIdx body
  | .TryTable _ _ body => anyContainsDataIdx body
  | .If _ thenBody elseBody => anyContainsDataIdx thenBody || optContainsDataIdx elseBody
  | _ => false
/-- src/decode/helpers.rs:56, 59, 62: `body.iter().any(instruction_contains_data_index)` -/
def anyContainsDataIdx : List Instr → Bool
  | [] => false
  | i :: is => containsDataIdx i || anyContainsDataIdx is
/-- src/decode/helpers.rs:60-62: `else_body.as_ref().is_some_and(|body| body.iter().any(instruction_contains_data_index))` -/
def optContainsDataIdx : Option (List Instr) → Bool
  | none => false
  | some body => anyContainsDataIdx body
end

/-- The loop of `decode_expr` (src/decode/helpers.rs:29-42); `p` is `Instruction::parse`. -/
def decodeExprLoop (p : Dec R ParseError ParseResult) :
    Nat → List Instr → Bool → Dec R ParseExpressionError (Expr × Bool)
  | 0, _, _ => Dec.outOfFuel
  | n + 1, body, encountered_data_index => do
    let parsed ← p.mapErr ParseExpressionError.ParseInstruction
    match parsed with
    | .Instruction ins =>
      decodeExprLoop p n (body ++ [ins]) (if containsDataIdx ins then true else encountered_data_index)
    | .End => pure (body, encountered_data_index)
    | .Else => Dec.err .UnexpectedElse

/-- src/decode/helpers.rs:23-45 `decode_expr`.  The step budget is what is left in the reader. -/
def decodeExpr : Dec R ParseExpressionError (Expr × Bool) := fun r =>
  decodeExprLoop (parse (Read.weight r + 1)) (Read.weight r + 1) [] false r

end Wadec
