import Verif.Model.TargetBase

/-! The decoding functions that make vectors, on a target where a vector may be too large.  Generated by tools/gen_target.py from
Verif/Model/{Io,Integer,Helpers,Types,Instructions,Sections,Module}.lean: the same text in the monad of Verif/Model/TargetBase.lean.
Functions that make no vectors are taken over by `lift`. -/

namespace Wadec.Bounded

variable {R : Type} [Read R] {ε α σ : Type}

/-! ### Model/Io.lean -/

/-- `reader.read_exact(&mut buf)` (src/decode/helpers.rs:10, 76, 88, 161, src/decode/module.rs:364,
src/decode/instructions.rs:205, 752, 759) with `buf.len() = n`; makes no vectors -/
def readExact {R : Type} [Read R] (n : Nat) : Dec R IoError (List UInt8) :=
  Dec.lift (Wadec.readExact n)

/-- `reader.read_to_end(&mut contents)` (src/decode/sections/custom.rs:20) into an empty vector; makes no vectors -/
def readToEnd {R : Type} [Read R] : Dec R IoError (List UInt8) :=
  Dec.lift (Wadec.readToEnd)

/-- src/decode/helpers.rs:8-12 `read_byte`; makes no vectors -/
def readByte {R : Type} [Read R] : Dec R IoError UInt8 :=
  Dec.lift (Wadec.readByte)

/-! ### Model/Integer.lean -/

/-- src/decode/integer.rs:20-50 `decode_u32`; makes no vectors -/
def decodeU32 : Dec R DecodeU32Error UInt32 :=
  Dec.lift (Wadec.decodeU32)

/-- src/decode/integer.rs:108-137 `decode_i32`; makes no vectors -/
def decodeI32 : Dec R DecodeI32Error Int32 :=
  Dec.lift (Wadec.decodeI32)

/-- src/decode/integer.rs:151-188 `decode_i64`; makes no vectors -/
def decodeI64 : Dec R DecodeI64Error Int64 :=
  Dec.lift (Wadec.decodeI64)

/-! ### Model/Helpers.lean -/

/-- src/decode/indices.rs:18-22, 26; makes no vectors -/
def TypeIdx.decode : Dec R DecodeTypeIdxError TypeIdx :=
  Dec.lift (Wadec.TypeIdx.decode)

/-- src/decode/indices.rs:18-22, 27; makes no vectors -/
def FuncIdx.decode : Dec R DecodeFuncIdxError FuncIdx :=
  Dec.lift (Wadec.FuncIdx.decode)

/-- src/decode/indices.rs:18-22, 28; makes no vectors -/
def TableIdx.decode : Dec R DecodeTableIdxError TableIdx :=
  Dec.lift (Wadec.TableIdx.decode)

/-- src/decode/indices.rs:18-22, 29; makes no vectors -/
def MemIdx.decode : Dec R DecodeMemIdxError MemIdx :=
  Dec.lift (Wadec.MemIdx.decode)

/-- src/decode/indices.rs:18-22, 34; makes no vectors -/
def LabelIdx.decode : Dec R DecodeLabelIdxError LabelIdx :=
  Dec.lift (Wadec.LabelIdx.decode)

/-- src/decode/indices.rs:18-22, 35; makes no vectors -/
def TagIdx.decode : Dec R DecodeTagIdxError TagIdx :=
  Dec.lift (Wadec.TagIdx.decode)

/-- src/decode/helpers.rs:74-78 `decode_f32`, on bit patterns; makes no vectors -/
def decodeF32 : Dec R DecodeFloat32Error UInt32 :=
  Dec.lift (Wadec.decodeF32)

/-- src/decode/helpers.rs:86-90 `decode_f64`, on bit patterns; makes no vectors -/
def decodeF64 : Dec R DecodeFloat64Error UInt64 :=
  Dec.lift (Wadec.decodeF64)

/-- The loop `for i in 0..len` of `decode_list` (src/decode/helpers.rs:112-118).  `parse_fn` is an
`FnMut` closure; `σ` is the state it captures.  Arguments: elements left, position, state,
elements so far; vectors may be too large -/
def decodeListLoop (parse_fn : σ → Dec R ε (α × σ)) :
    Nat → UInt32 → σ → List α → Dec R (DecodeListError ε) (List α × σ)
  | 0, _, st, items => pure (items, st)
  | n + 1, i, st, items => do
    let (elem, st') ← (parse_fn st).mapErr (fun err => DecodeListError.ParseElement i err)
    decodeListLoop parse_fn n (i + 1) st' (items ++ [elem])

/-- src/decode/helpers.rs:101-121 `decode_list`, with the state of the closure explicit.  The
capacity of the vector is requested before the first element is read; `len.try_into().unwrap()`
does not fail (usize has at least 32 bits); vectors may be too large -/
def decodeListS [Element α] (parse_fn : σ → Dec R ε (α × σ)) (st : σ) :
    Dec R (DecodeListError ε) (List α × σ) := do
  let len ← decodeU32.mapErr DecodeListError.DecodeLength
  Dec.reserve (Element.kind α) len.toNat
  decodeListLoop parse_fn len.toNat 0 st []

/-- src/decode/helpers.rs:101-121 `decode_list` with a stateless element decoder; vectors may be too large -/
def decodeList [Element α] (parse_fn : Dec R ε α) : Dec R (DecodeListError ε) (List α) := do
  let (items, _) ← decodeListS (fun (_ : Unit) => do let x ← parse_fn; pure (x, ())) ()
  pure items

/-- src/decode/helpers.rs:156-163 `decode_byte_vector`; vectors may be too large -/
def decodeByteVector : Dec R DecodeByteVectorError (List UInt8) := do
  let len ← decodeU32.mapErr DecodeByteVectorError.DecodeLength
  Dec.reserve .byte len.toNat
  (readExact len.toNat).mapErr DecodeByteVectorError.ReadElements

/-- src/decode/helpers.rs:174-176 `decode_name`: `Vec<u8>::try_into::<String>()` is
`String::from_utf8`; vectors may be too large -/
def decodeName : Dec R DecodeNameError Str := do
  let bytes ← decodeByteVector.mapErr DecodeNameError.DecodeByteVector
  match utf8Check 0 bytes with
  | none => pure ⟨bytes⟩
  | some (valid_up_to, error_len) => Dec.err (.Utf8 ⟨bytes, valid_up_to, error_len⟩)

/-! ### Model/Types.lean -/

/-- src/decode/types/reftype.rs:22-46 `RefType::decode`; makes no vectors -/
def RefType.decode : Dec R DecodeRefTypeError RefType :=
  Dec.lift (Wadec.RefType.decode)

/-- src/decode/types/valtype.rs:20-32 `ValType::decode`; makes no vectors -/
def ValType.decode : Dec R DecodeValTypeError ValType :=
  Dec.lift (Wadec.ValType.decode)

/-- src/decode/types/resulttype.rs:14-18 `decode_result_type`; vectors may be too large -/
def decodeResultType : Dec R DecodeResultTypeError (List ValType) :=
  (decodeList ValType.decode).mapErr DecodeResultTypeError.DecodeList

/-- src/decode/types/globaltype.rs:23-29 `GlobalType::decode`; makes no vectors -/
def GlobalType.decode : Dec R DecodeGlobalTypeError GlobalType :=
  Dec.lift (Wadec.GlobalType.decode)

/-- src/decode/types/comptype.rs:79-87 `decode_fieldtype`; makes no vectors -/
def decodeFieldType : Dec R DecodeFieldTypeError FieldType :=
  Dec.lift (Wadec.decodeFieldType)

/-- src/decode/types/comptype.rs:36-61 `CompType::decode`; vectors may be too large -/
def CompType.decode : Dec R DecodeCompTypeError CompType := do
  let marker ← readByte.mapErr DecodeCompTypeError.ReadMarkerByte
  if marker = 0x5E then do
    let ft ← decodeFieldType.mapErr DecodeCompTypeError.DecodeFieldType
    pure (.Array ft)
  else if marker = 0x5F then do
    let ft ← (decodeList decodeFieldType).mapErr DecodeCompTypeError.DecodeStruct
    pure (.Struct ft)
  else if marker = 0x60 then do
    let parameters ← decodeResultType.mapErr DecodeCompTypeError.DecodeFuncParameters
    let results ← decodeResultType.mapErr DecodeCompTypeError.DecodeFuncResults
    pure (.Func parameters results)
  else Dec.err (.InvalidMarkerByte marker)

/-- src/decode/types/rectype.rs:54-81 `SubType::decode`; vectors may be too large -/
def SubType.decode : Dec R DecodeSubTypeError SubType := do
  let marker ← readByte.mapErr DecodeSubTypeError.Io
  if marker = 0x4F ∨ marker = 0x50 then do
    let x ← (decodeList TypeIdx.decode).mapErr DecodeSubTypeError.DecodeSupertypes
    let ct ← CompType.decode.mapErr DecodeSubTypeError.DecodeCompType
    pure ⟨marker == 0x4F, x, ct⟩
  else do
    let ct ← (Dec.withChain marker CompType.decode).mapErr DecodeSubTypeError.DecodeCompType
    pure ⟨true, [], ct⟩

/-- src/decode/types/rectype.rs:23-35 `RecType::decode`; vectors may be too large -/
def RecType.decode : Dec R DecodeRecTypeError RecType := do
  let marker ← readByte.mapErr DecodeRecTypeError.Io
  if marker = 0x4E then do
    let subtypes ← (decodeList SubType.decode).mapErr DecodeRecTypeError.DecodeSubtypes
    pure ⟨subtypes⟩
  else do
    let st ← (Dec.withChain marker SubType.decode).mapErr DecodeRecTypeError.DecodeSubtype
    pure ⟨[st]⟩

/-- src/decode/types/memtype.rs:10-15 `parse_memtype`; makes no vectors -/
def parseMemType : Dec R DecodeMemoryTypeError MemType :=
  Dec.lift (Wadec.parseMemType)

/-- src/decode/types/tabletype.rs:19-23 `TableType::decode`; makes no vectors -/
def TableType.decode : Dec R DecodeTableTypeError TableType :=
  Dec.lift (Wadec.TableType.decode)

/-- src/decode/types/tagtype.rs:26-33 `TagType::decode`; makes no vectors -/
def TagType.decode : Dec R DecodeTagTypeError TagType :=
  Dec.lift (Wadec.TagType.decode)

/-- src/decode/types/externtype.rs:43-53 `ExternType::decode`; makes no vectors -/
def ExternType.decode : Dec R DecodeExternTypeError ExternType :=
  Dec.lift (Wadec.ExternType.decode)

/-! ### Model/Instructions.lean -/

/-- src/decode/instructions.rs:1037-1055 `Memarg::decode`; makes no vectors -/
def Memarg.decode : Dec R MemargError Memarg :=
  Dec.lift (Wadec.Memarg.decode)

/-- src/decode/instructions.rs:1085-1110 `BlockType::decode`: any failure of `ValType::decode` is
discarded, and the index is read from `b` followed by whatever `ValType::decode` left; makes no vectors -/
def BlockType.decode : Dec R BlockTypeError BlockType :=
  Dec.lift (Wadec.BlockType.decode)

/-- src/decode/instructions.rs:1129-1147 `Catch::decode`; makes no vectors -/
def Catch.decode : Dec R CatchError Wadec.Catch :=
  Dec.lift (Wadec.Catch.decode)

/-- src/decode/instructions.rs:323, 421: `HeapType::decode(reader).map_err(ReferenceError::HeapType)?`; makes no vectors -/
def refHeap : Dec R ParseError HeapType :=
  Dec.lift (Wadec.refHeap)

/-- src/decode/instructions.rs:267-272, 313, 316, 440: `LabelIdx::decode(reader).map_err(ControlError::LabelIdx)?`; makes no vectors -/
def ctlLabel : Dec R ParseError LabelIdx :=
  Dec.lift (Wadec.ctlLabel)

/-- src/decode/instructions.rs:276, 283: `FuncIdx::decode(reader).map_err(ControlError::FuncIdx)?`; makes no vectors -/
def ctlFunc : Dec R ParseError FuncIdx :=
  Dec.lift (Wadec.ctlFunc)

/-- src/decode/instructions.rs:278, 286, 290, 292: `TypeIdx::decode(reader).map_err(ControlError::TypeIdx)?`; makes no vectors -/
def ctlType : Dec R ParseError TypeIdx :=
  Dec.lift (Wadec.ctlType)

/-- src/decode/instructions.rs:279, 287: `TableIdx::decode(reader).map_err(ControlError::TableIdx)?`; makes no vectors -/
def ctlTable : Dec R ParseError TableIdx :=
  Dec.lift (Wadec.ctlTable)

/-- src/decode/instructions.rs:481-482, 690-705: `TableIdx::decode(reader).map_err(TableError::TableIdx)?`; makes no vectors -/
def tabTable : Dec R ParseError TableIdx :=
  Dec.lift (Wadec.tabTable)

/-- src/decode/instructions.rs:515, 519, 671-683: `MemIdx::decode(reader).map_err(MemoryError::DecodeMemIdx)?`; makes no vectors -/
def memMem : Dec R ParseError MemIdx :=
  Dec.lift (Wadec.memMem)

/-- src/decode/instructions.rs:465-471: `LocalIdx::decode(reader).map_err(VariableError::LocalIdx)?`; makes no vectors -/
def varLocal : Dec R ParseError LocalIdx :=
  Dec.lift (Wadec.varLocal)

/-- src/decode/instructions.rs:474, 477: `GlobalIdx::decode(reader).map_err(VariableError::GlobalIdx)?`; makes no vectors -/
def varGlobal : Dec R ParseError GlobalIdx :=
  Dec.lift (Wadec.varGlobal)

/-- src/decode/instructions.rs:331-461: the `match op` after the prefix 0xFB; makes no vectors -/
def parseFB (op : UInt32) : Dec R ParseError Instr :=
  Dec.lift (Wadec.parseFB op)

/-- src/decode/instructions.rs:657-710: the `match` after the prefix 0xFC; makes no vectors -/
def parseFC (op : UInt32) : Dec R ParseError Instr :=
  Dec.lift (Wadec.parseFC op)

/-- src/decode/instructions.rs:713-1007: the `match` after the prefix 0xFD; makes no vectors -/
def parseFD (op : UInt32) : Dec R ParseError Instr :=
  Dec.lift (Wadec.parseFD op)

/-- The arms of `Instruction::parse` (src/decode/instructions.rs:202-1009) that do not recurse,
for an opcode other than `end` (0x0B), `else` (0x05), 0x02..=0x04 and 0x1F; vectors may be too large -/
def parseSimple (op : UInt8) : Dec R ParseError Instr :=
  if op = 0x1B then pure (.Select none)
  else if op = 0x1C then do
    let ts ← (decodeList ValType.decode).mapErr (fun e => ParseError.Parametric (.DecodeList e))
    pure (.Select (some ts))
  else if op = 0x08 then do
    let x ← TagIdx.decode.mapErr (fun e => ParseError.Control (.TagIdx e))
    pure (.Throw x)
  else if op = 0x0C then do let l ← ctlLabel; pure (.Br l)
  else if op = 0x0D then do let l ← ctlLabel; pure (.BrIf l)
  else if op = 0x0E then do
    let l ← (decodeList LabelIdx.decode).mapErr
      (fun e => ParseError.Control (.DecodeLabelIdxVector e))
    let ln ← ctlLabel
    pure (.BrTable l ln)
  else if op = 0x10 then do let x ← ctlFunc; pure (.Call x)
  else if op = 0x11 then do let y ← ctlType; let x ← ctlTable; pure (.CallIndirect x y)
  else if op = 0x12 then do let x ← ctlFunc; pure (.ReturnCall x)
  else if op = 0x13 then do let y ← ctlType; let x ← ctlTable; pure (.ReturnCallIndirect x y)
  else if op = 0x14 then do let x ← ctlType; pure (.CallRef x)
  else if op = 0x15 then do let x ← ctlType; pure (.ReturnCallRef x)
  else if op = 0xD5 then do let l ← ctlLabel; pure (.BrOnNull l)
  else if op = 0xD6 then do let l ← ctlLabel; pure (.BrOnNonNull l)
  else if op = 0xD0 then do let ht ← refHeap; pure (.RefNull ht)
  else if op = 0xD2 then do
    let x ← FuncIdx.decode.mapErr (fun e => ParseError.Reference (.FuncIdx e))
    pure (.RefFunc x)
  else if op = 0xFB then do
    let sub ← decodeU32.mapErr (fun e => ParseError.Reference (.ReadSubOpcode e))
    parseFB sub
  else if op = 0x20 then do let x ← varLocal; pure (.LocalGet x)
  else if op = 0x21 then do let x ← varLocal; pure (.LocalSet x)
  else if op = 0x22 then do let x ← varLocal; pure (.LocalTee x)
  else if op = 0x23 then do let x ← varGlobal; pure (.GlobalGet x)
  else if op = 0x24 then do let x ← varGlobal; pure (.GlobalSet x)
  else if op = 0x25 then do let x ← tabTable; pure (.TableGet x)
  else if op = 0x26 then do let x ← tabTable; pure (.TableSet x)
  else if 0x28 ≤ op ∧ op ≤ 0x3E then do
    let m ← Memarg.decode.mapErr (fun e => ParseError.Memory (.DecodeMemarg e))
    match memTable.lookup op with
    | some p => pure (.mem p m)
    | none => Dec.panic                              -- `unreachable!()`
  else if op = 0x3F then do let x ← memMem; pure (.MemorySize x)
  else if op = 0x40 then do let x ← memMem; pure (.MemoryGrow x)
  else if op = 0x41 then do
    let v ← decodeI32.mapErr (fun e => ParseError.Numeric (.DecodeI32 e))
    pure (.I32Const v)
  else if op = 0x42 then do
    let v ← decodeI64.mapErr (fun e => ParseError.Numeric (.DecodeI64 e))
    pure (.I64Const v)
  else if op = 0x43 then do
    let v ← decodeF32.mapErr (fun e => ParseError.Numeric (.DecodeF32 e))
    pure (.F32Const v)
  else if op = 0x44 then do
    let v ← decodeF64.mapErr (fun e => ParseError.Numeric (.DecodeF64 e))
    pure (.F64Const v)
  else if op = 0xFC then do
    let sub ← decodeU32.mapErr (fun e => ParseError.Numeric (.ReadOpcode e))
    parseFC sub
  else if op = 0xFD then do
    let sub ← decodeU32.mapErr (fun e => ParseError.Vector (.ReadOpcode e))
    parseFD sub
  else
    match plainByteTable.lookup op with
    | some p => pure (.plain p)
    | none => Dec.err (.InvalidOpcode op)

/-- The loops `loop { parsed = Self::parse(reader)?; match parsed { .. } }` of
src/decode/instructions.rs:226-239, 248-257 and 301-308: push instructions until `end`, or, if
`allowElse`, until `else`; an `else` elsewhere is an error.  Returns the instructions and the last
`parsed`.  `p` is `Self::parse`; the `Nat` is the step budget (model artefact); vectors may be too large -/
def parseSeq (p : Dec R ParseError ParseResult) :
    Nat → Bool → List Instr → Dec R ParseError (List Instr × ParseResult)
  | 0, _, _ => Dec.outOfFuel
  | n + 1, allowElse, acc => do
    let parsed ← p
    match parsed with
    | .Instruction i => parseSeq p n allowElse (acc ++ [i])
    | .End => pure (acc, .End)
    | .Else => if allowElse then pure (acc, .Else) else Dec.err (.Control .UnexpectedElse)

/-- src/decode/instructions.rs:203-1012 `Instruction::parse`.  The first argument bounds the
recursion (model artefact; Rust recurses on the call stack); vectors may be too large -/
def parse : Nat → Dec R ParseError ParseResult
  | 0 => Dec.outOfFuel
  | n + 1 => do
    let opcode ← (readExact 1).mapErr ParseError.ReadOpcode
    match opcode with
    | [op] =>
      if op = 0x0B then pure .End
      else if op = 0x05 then pure .Else
      else if 0x02 ≤ op ∧ op ≤ 0x04 then do
        let bt ← BlockType.decode.mapErr (fun e => ParseError.Control (.BlockType e))
        let (in1, parsed) ← parseSeq (parse n) n (op == 0x04) []
        if op = 0x02 then pure (.Instruction (.Block bt in1))
        else if op = 0x03 then pure (.Instruction (.Loop bt in1))
        else if op = 0x04 then
          match parsed with
          | .End => pure (.Instruction (.If bt in1 none))
          | .Else => do
            let (in2, _) ← parseSeq (parse n) n false []
            pure (.Instruction (.If bt in1 (some in2)))
          | .Instruction _ => Dec.panic              -- `unreachable!()`
        else Dec.panic                               -- `unreachable!()`
      else if op = 0x1F then do
        let bt ← BlockType.decode.mapErr (fun e => ParseError.Control (.BlockType e))
        let c ← (decodeList Catch.decode).mapErr
          (fun e => ParseError.Control (.DecodeCatchListError e))
        let (ins, _) ← parseSeq (parse n) n false []
        pure (.Instruction (.TryTable bt c ins))
      else do
        let i ← parseSimple op
        pure (.Instruction i)
    | _ => Dec.panic                                 -- `opcode[0]` of a one-byte array

/-- The loop of `decode_expr` (src/decode/helpers.rs:29-42); `p` is `Instruction::parse`; vectors may be too large -/
def decodeExprLoop (p : Dec R ParseError ParseResult) :
    Nat → List Instr → Bool → Dec R ParseExpressionError (Expr × Bool)
  | 0, _, _ => Dec.outOfFuel
  | n + 1, body, encountered_data_index => do
    let parsed ← p.mapErr ParseExpressionError.ParseInstruction
    match parsed with
    | .Instruction ins =>
      decodeExprLoop p n (body ++ [ins]) (if containsDataIdx ins then true else encountered_data_index)
    | .End => pure (body, encountered_data_index)
    | .Else => Dec.err .UnexpectedElse

/-- src/decode/helpers.rs:23-45 `decode_expr`.  The step budget is what is left in the reader; vectors may be too large -/
def decodeExpr : Dec R ParseExpressionError (Expr × Bool) := fun r =>
  decodeExprLoop (parse (Read.weight r + 1)) (Read.weight r + 1) [] false r

/-! ### Model/Sections.lean -/

/-- src/decode/sections/code.rs:97-116 `parse_code_local`; the `&mut expanded_locals` argument is
threaded as a state.  `+=` panics (checked build) if the sum overflows; makes no vectors -/
def parseCodeLocal (expanded_locals : UInt64) : Dec R DecodeCodeLocalsError (Local × UInt64) :=
  Dec.lift (Wadec.parseCodeLocal expanded_locals)

/-- src/decode/sections/code.rs:57-61: the part of `parse_code` inside `reader.take(size)`; vectors may be too large -/
def parseCodeBody : Dec R DecodeCodeError (List Local × Expr × Bool) := do
  let (locals, _) ← (decodeListS parseCodeLocal 0).mapErr DecodeCodeError.DecodeLocalsVector
  let (expr, encountered_data_index) ← decodeExpr.mapErr DecodeCodeError.DecodeFunctionBody
  pure (locals, expr, encountered_data_index)

/-- src/decode/sections/code.rs:50-77 `parse_code`; vectors may be too large -/
def parseCode : Dec R DecodeCodeError Code := do
  let size ← decodeU32.mapErr DecodeCodeError.DecodeFunctionSize
  let ((locals, expr, encountered_data_index), limit) ← Dec.withTake size.toNat parseCodeBody
  if limit ≠ 0 then
    Dec.err (.EntrySizeMismatch size (UInt64.ofNat limit) (UInt64.ofNat (size.toNat - limit)))
  else pure ⟨size, locals, expr, encountered_data_index⟩

/-- src/decode/sections/code.rs:15-19 `decode_code_section`; vectors may be too large -/
def decodeCodeSection : Dec R DecodeCodeSectionError (List Code) :=
  (decodeList parseCode).mapErr DecodeCodeSectionError.DecodeList

/-- src/decode/sections/custom.rs:15-23 `decode_section_custom`; vectors may be too large -/
def decodeSectionCustom : Dec R DecodeCustomSectionError CustomSection := do
  let name ← decodeName.mapErr DecodeCustomSectionError.DecodeName
  let contents ← readToEnd.mapErr DecodeCustomSectionError.Io
  pure ⟨name, contents⟩

/-- `let (e, _) = decode_expr(reader)?` at src/decode/sections/data.rs:48, 60, table.rs:48, global.rs:31
and element.rs:72, 94, 112, 135; vectors may be too large -/
def decodeExpr' : Dec R ParseExpressionError Expr := do
  let (e, _) ← decodeExpr
  pure e

/-- src/decode/sections/data.rs:42-74 `parse_data`; vectors may be too large -/
def parseData : Dec R DecodeDataSegmentError Data := do
  let n ← decodeU32.mapErr DecodeDataSegmentError.DecodeBitfield
  if n = 0 then do
    let e ← decodeExpr'.mapErr DecodeDataSegmentError.DecodeOffsetExpr
    let init ← decodeByteVector.mapErr DecodeDataSegmentError.DecodeInitVector
    pure ⟨init, .Active ⟨0⟩ e⟩
  else if n = 1 then do
    let init ← decodeByteVector.mapErr DecodeDataSegmentError.DecodeInitVector
    pure ⟨init, .Passive⟩
  else if n = 2 then do
    let x ← MemIdx.decode.mapErr DecodeDataSegmentError.DecodeMemIdx
    let e ← decodeExpr'.mapErr DecodeDataSegmentError.DecodeOffsetExpr
    let init ← decodeByteVector.mapErr DecodeDataSegmentError.DecodeInitVector
    pure ⟨init, .Active x e⟩
  else Dec.err (.InvalidBitfield n)

/-- src/decode/sections/data.rs:18-22 `decode_data_section`; vectors may be too large -/
def decodeDataSection : Dec R DecodeDataSectionError (List Data) :=
  (decodeList parseData).mapErr DecodeDataSectionError.DecodeList

/-- src/decode/sections/data_count.rs:11-15 `decode_datacount_section`; makes no vectors -/
def decodeDatacountSection : Dec R DecodeDataCountSectionError UInt32 :=
  Dec.lift (Wadec.decodeDatacountSection)

/-- src/decode/sections/element.rs:175-187 `parse_elemkind`; makes no vectors -/
def parseElemKind : Dec R DecodeElementKindError RefType :=
  Dec.lift (Wadec.parseElemKind)

/-- src/decode/sections/element.rs:73, 88, 96, 108: `decode_list(reader, FuncIdx::decode)?` in `parse_elem`; vectors may be too large -/
def elemFuncs : Dec R DecodeElementError (List FuncIdx) :=
  (decodeList FuncIdx.decode).mapErr DecodeElementError.DecodeFuncIdxVector

/-- src/decode/sections/element.rs:113, 129, 137, 151:
`decode_list(reader, |r| decode_expr(r).map(|(expr, _)| expr)).map_err(..)?` in `parse_elem`; vectors may be too large -/
def elemExprs : Dec R DecodeElementError (List Expr) :=
  (decodeList decodeExpr').mapErr DecodeElementError.DecodeInit

/-- src/decode/sections/element.rs:61-160 `parse_elem`; vectors may be too large -/
def parseElem : Dec R DecodeElementError Elem := do
  let bitfield ← decodeU32.mapErr DecodeElementError.DecodeBitfield
  if bitfield = 0 then do
    let e ← decodeExpr'.mapErr DecodeElementError.DecodeOffsetExpression
    let y ← elemFuncs
    pure ⟨⟨false, .Ht .Func⟩, funcidxIntoReffunc y, .Active ⟨0⟩ e⟩
  else if bitfield = 1 then do
    let rt ← parseElemKind.mapErr DecodeElementError.DecodeElementKind
    let y ← elemFuncs
    pure ⟨rt, funcidxIntoReffunc y, .Passive⟩
  else if bitfield = 2 then do
    let x ← TableIdx.decode.mapErr DecodeElementError.DecodeTableIdx
    let e ← decodeExpr'.mapErr DecodeElementError.DecodeElementExpression
    let rt ← parseElemKind.mapErr DecodeElementError.DecodeElementKind
    let y ← elemFuncs
    pure ⟨rt, funcidxIntoReffunc y, .Active x e⟩
  else if bitfield = 3 then do
    let rt ← parseElemKind.mapErr DecodeElementError.DecodeElementKind
    let y ← elemFuncs
    pure ⟨rt, funcidxIntoReffunc y, .Declare⟩
  else if bitfield = 4 then do
    let e ← decodeExpr'.mapErr DecodeElementError.DecodeOffsetExpression
    let el ← elemExprs
    pure ⟨⟨true, .Ht .Func⟩, el, .Active ⟨0⟩ e⟩
  else if bitfield = 5 then do
    let rt ← RefType.decode.mapErr DecodeElementError.DecodeReferenceType
    let el ← elemExprs
    pure ⟨rt, el, .Passive⟩
  else if bitfield = 6 then do
    let x ← TableIdx.decode.mapErr DecodeElementError.DecodeTableIdx
    let e ← decodeExpr'.mapErr DecodeElementError.DecodeOffsetExpression
    let rt ← RefType.decode.mapErr DecodeElementError.DecodeReferenceType
    let el ← elemExprs
    pure ⟨rt, el, .Active x e⟩
  else if bitfield = 7 then do
    let rt ← RefType.decode.mapErr DecodeElementError.DecodeReferenceType
    let el ← elemExprs
    pure ⟨rt, el, .Declare⟩
  else Dec.err (.InvalidBitfield bitfield)

/-- src/decode/sections/element.rs:21-25 `decode_element_section`; vectors may be too large -/
def decodeElementSection : Dec R DecodeElementSectionError (List Elem) :=
  (decodeList parseElem).mapErr DecodeElementSectionError.DecodeList

/-- src/decode/sections/export.rs:57-66 `ExternIdx::from`; makes no vectors -/
def ExternIdx.from (b : UInt8) (idx : UInt32) : Dec R InvalidExportDescMarkerByte ExternIdx :=
  Dec.lift (Wadec.ExternIdx.from b idx)

/-- src/decode/sections/export.rs:37-48 `parse_export`; vectors may be too large -/
def parseExport : Dec R DecodeExportError Export := do
  let name ← decodeName.mapErr DecodeExportError.DecodeName
  let desc_kind ← readByte.mapErr DecodeExportError.ReadDescriptorMarkerByte
  let idx ← decodeU32.mapErr DecodeExportError.DecodeIndex
  let desc ← (ExternIdx.from desc_kind idx).mapErr DecodeExportError.InvalidDescriptorMarkerByte
  pure ⟨name, desc⟩

/-- src/decode/sections/export.rs:16-20 `decode_export_section`; vectors may be too large -/
def decodeExportSection : Dec R DecodeExportSectionError (List Export) :=
  (decodeList parseExport).mapErr DecodeExportSectionError.DecodeList

/-- src/decode/sections/function.rs:13-17 `decode_function_section`; vectors may be too large -/
def decodeFunctionSection : Dec R DecodeFunctionSectionError (List TypeIdx) :=
  (decodeList TypeIdx.decode).mapErr DecodeFunctionSectionError.DecodeList

/-- src/decode/sections/start.rs:10-14 `decode_start_section`; makes no vectors -/
def decodeStartSection : Dec R DecodeStartSectionError FuncIdx :=
  Dec.lift (Wadec.decodeStartSection)

/-- src/decode/sections/tag.rs:13-17 `decode_tag_section`; vectors may be too large -/
def decodeTagSection : Dec R DecodeTagSectionError (List TagType) :=
  (decodeList TagType.decode).mapErr DecodeTagSectionError.DecodeList

/-- src/decode/sections/type.rs:13-17 `decode_type_section`; vectors may be too large -/
def decodeTypeSection : Dec R DecodeTypeSectionError (List RecType) :=
  (decodeList RecType.decode).mapErr DecodeTypeSectionError.DecodeList

/-- src/decode/sections/memory.rs:13-17 `decode_memory_section`; vectors may be too large -/
def decodeMemorySection : Dec R DecodeMemorySectionError (List MemType) :=
  (decodeList parseMemType).mapErr DecodeMemorySectionError.DecodeList

/-- src/decode/sections/global.rs:29-34 `parse_global`; vectors may be too large -/
def parseGlobal : Dec R DecodeGlobalError Global := do
  let type ← GlobalType.decode.mapErr DecodeGlobalError.DecodeGlobalType
  let init ← decodeExpr'.mapErr DecodeGlobalError.DecodeInit
  pure ⟨type, init⟩

/-- src/decode/sections/global.rs:14-18 `decode_global_section`; vectors may be too large -/
def decodeGlobalSection : Dec R DecodeGlobalSectionError (List Global) :=
  (decodeList parseGlobal).mapErr DecodeGlobalSectionError.DecodeList

/-- src/decode/sections/import.rs:36-46 `parse_import`; vectors may be too large -/
def parseImport : Dec R DecodeImportError Import := do
  let module_name ← decodeName.mapErr DecodeImportError.DecodeModuleName
  let item_name ← decodeName.mapErr DecodeImportError.DecodeItemName
  let extern_type ← ExternType.decode.mapErr DecodeImportError.DecodeExternType
  pure ⟨module_name, item_name, extern_type⟩

/-- src/decode/sections/import.rs:14-18 `decode_import_section`; vectors may be too large -/
def decodeImportSection : Dec R DecodeImportSectionError (List Import) :=
  (decodeList parseImport).mapErr DecodeImportSectionError.DecodeList

/-- src/decode/sections/table.rs:40-58 `decode_table`; vectors may be too large -/
def decodeTable : Dec R DecodeTableError Table := do
  let byte ← readByte.mapErr DecodeTableError.Io
  if byte = 0x40 then do
    let b ← readByte.mapErr DecodeTableError.Io
    if b ≠ 0x00 then Dec.err (.UnexpectedMarkerByte b)
    else do
      let tt ← TableType.decode.mapErr DecodeTableError.DecodeTableType
      let e ← decodeExpr'.mapErr DecodeTableError.DecodeExpression
      pure ⟨tt, e⟩
  else do
    let tt ← (Dec.withChain byte TableType.decode).mapErr DecodeTableError.DecodeTableType
    pure ⟨tt, [.RefNull tt.reftype.ht]⟩

/-- src/decode/sections/table.rs:16-20 `decode_table_section`; vectors may be too large -/
def decodeTableSection : Dec R DecodeTableSectionError (List Table) :=
  (decodeList decodeTable).mapErr DecodeTableSectionError.DecodeList

/-! ### Model/Module.lean -/

/-- src/decode/module.rs:26-50 `validate_section_kind_expected`; makes no vectors -/
def Module.validateSectionKindExpected (self : Module) (current : SectionKind) :
    Dec R DecodeModuleError Unit :=
  Dec.lift (Wadec.Module.validateSectionKindExpected self current)

/-- src/decode/module.rs:362-371 `parse_preamble`; makes no vectors -/
def parsePreamble : Dec R ParsePreambleError Unit :=
  Dec.lift (Wadec.parsePreamble)

/-- src/decode/module.rs:385-398 `decode_section_header`: the end of the input at the ID byte is
the end of the module; any error of kind `UnexpectedEof` counts as that; makes no vectors -/
def decodeSectionHeader : Dec R DecodeSectionHeaderError (Option SectionHeader) :=
  Dec.lift (Wadec.decodeSectionHeader)

/-- src/decode/module.rs:272-284: `for (i, code) in codes.into_iter().enumerate()`; `funcs[i]`
panics if out of bounds; vectors may be too large -/
def fillFuncs : List Code → Nat → List Func → Bool → Dec R DecodeModuleError (List Func × Bool)
  | [], _, funcs, enc => pure (funcs, enc)
  | code :: codes, i, funcs, enc =>
    match funcs[i]? with
    | none => Dec.panic
    | some f => do
      Dec.grow (expandLocals code.locals).length
      fillFuncs codes (i + 1)
        (funcs.set i { f with locals := f.locals ++ expandLocals code.locals, body := code.expr })
        (if code.encountered_data_index then true else enc)

/-- src/decode/module.rs:229-302: the `match section_kind`, run on `input.by_ref().take(size)`; vectors may be too large -/
def decodeSectionBody (kind : SectionKind) (st : LoopState) :
    Dec R DecodeModuleError LoopState :=
  let m := st.module
  match kind with
  | .Custom => do
    let s ← decodeSectionCustom.mapErr DecodeModuleError.DecodeCustomSection
    pure { st with module := { m with custom_sections := m.custom_sections ++ [s] } }
  | .Type => do
    let types ← decodeTypeSection.mapErr DecodeModuleError.DecodeTypeSection
    pure { st with module := { m with types } }
  | .Import => do
    let imports ← decodeImportSection.mapErr DecodeModuleError.DecodeImportSection
    pure { st with module := { m with imports } }
  | .Function => do
    let idxs ← decodeFunctionSection.mapErr DecodeModuleError.DecodeFunctionSection
    pure { st with module :=
      { m with funcs := m.funcs ++ idxs.map (fun type_idx => ⟨type_idx, [], []⟩) } }
  | .Table => do
    let tables ← decodeTableSection.mapErr DecodeModuleError.DecodeTableSection
    pure { st with module := { m with tables } }
  | .Memory => do
    let mems ← decodeMemorySection.mapErr DecodeModuleError.DecodeMemorySection
    pure { st with module := { m with mems } }
  | .Global => do
    let globals ← decodeGlobalSection.mapErr DecodeModuleError.DecodeGlobalSection
    pure { st with module := { m with globals } }
  | .Export => do
    let exports ← decodeExportSection.mapErr DecodeModuleError.DecodeExportSection
    pure { st with module := { m with exports } }
  | .Start => do
    let start ← decodeStartSection.mapErr DecodeModuleError.DecodeStartSection
    pure { st with module := { m with start := some start } }
  | .Element => do
    let elems ← decodeElementSection.mapErr DecodeModuleError.DecodeElementSection
    pure { st with module := { m with elems } }
  | .DataCount => do
    let n ← decodeDatacountSection.mapErr DecodeModuleError.DecodeDatacountSection
    pure { st with module := { m with data_count := some n } }
  | .Code => do
    let codes ← decodeCodeSection.mapErr DecodeModuleError.DecodeCodeSection
    if codes.length ≠ m.funcs.length then
      Dec.err (.CodeFuncEntriesLenMismatch codes.length m.funcs.length)
    else do
      let (funcs, enc) ← fillFuncs codes 0 m.funcs st.encountered_data_idx_in_code_section
      pure ⟨{ m with funcs }, true, enc⟩
  | .Data => do
    let datas ← decodeDataSection.mapErr DecodeModuleError.DecodeDataSection
    match m.data_count with
    | some data_count =>
      if datas.length ≠ data_count.toNat then
        Dec.err (.DataCountMismatch datas.length data_count)
      else pure { st with module := { m with datas } }
    | none => pure { st with module := { m with datas } }
  | .Tag => do
    let tags ← decodeTagSection.mapErr DecodeModuleError.DecodeTagSection
    pure { st with module := { m with tags } }

/-- src/decode/module.rs:224-318: one iteration of the section loop, after the header has been
read: order check, contents, size check, bookkeeping; vectors may be too large -/
def decodeSection (h : SectionHeader) (st : LoopState) : Dec R DecodeModuleError LoopState := do
  Module.validateSectionKindExpected st.module h.kind
  let (st, limit) ← Dec.withTake h.size.toNat (decodeSectionBody h.kind st)
  if limit ≠ 0 then
    Dec.err (.SectionSizeMismatch h.kind h.size (UInt64.ofNat (h.size.toNat - limit)))
  else
    pure { st with module := { st.module with
      section_headers := st.module.section_headers ++ [h]
      parsed_section_kinds :=
        if h.kind ≠ .Custom then st.module.parsed_section_kinds ++ [h.kind]
        else st.module.parsed_section_kinds } }

/-- src/decode/module.rs:223-319: `while let Some(section_header) = decode_section_header(..)?`.
The `Nat` is the step budget (model artefact); vectors may be too large -/
def sectionLoop : Nat → LoopState → Dec R DecodeModuleError LoopState
  | 0, _ => Dec.outOfFuel
  | n + 1, st => do
    let h ← decodeSectionHeader.mapErr DecodeModuleError.DecodeSectionHeader
    match h with
    | none => pure st
    | some h => do
      let st ← decodeSection h st
      sectionLoop n st

/-- src/decode/module.rs:321-350: the checks after the loop.  (`usize::try_from(u32)` cannot
fail: usize has at least 32 bits.); makes no vectors -/
def finalChecks (st : LoopState) : Dec R DecodeModuleError Module :=
  Dec.lift (Wadec.finalChecks st)

/-- src/decode/module.rs:207-351 `decode_module`; vectors may be too large -/
def decodeModule : Dec R DecodeModuleError Module := fun r =>
  (do
    parsePreamble.mapErr DecodeModuleError.ParsePreamble
    let st ← sectionLoop (Read.weight r + 1) ⟨Module.default, false, false⟩
    finalChecks st : Dec R DecodeModuleError Module) r

end Wadec.Bounded
