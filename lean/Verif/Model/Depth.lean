import Verif.Model.Module

/-! `Instruction::parse` and `instruction_contains_data_index`, the recursive functions of the decoder, with a call stack of
limited size. -/

namespace Wadec

variable {R : Type} [Read R]

/-- src/decode/instructions.rs:203-1012 `Instruction::parse` as in Verif/Model/Instructions.lean, but with room for only
`d` calls of it on the call stack (the first argument): a further nested call ends in `outOfFuel`.  The second
argument bounds the number of steps, as there. -/
def parseWithin : Nat → Nat → Dec R ParseError ParseResult
  | 0, _ => Dec.outOfFuel
  | _ + 1, 0 => Dec.outOfFuel
  | d + 1, n + 1 => do
    let opcode ← (readExact 1).mapErr ParseError.ReadOpcode
    match opcode with
    | [op] =>
      if op = 0x0B then pure .End
      else if op = 0x05 then pure .Else
      else if 0x02 ≤ op ∧ op ≤ 0x04 then do
        let bt ← BlockType.decode.mapErr (fun e => ParseError.Control (.BlockType e))
        let (in1, parsed) ← parseSeq (parseWithin d n) n (op == 0x04) []
        if op = 0x02 then pure (.Instruction (.Block bt in1))
        else if op = 0x03 then pure (.Instruction (.Loop bt in1))
        else if op = 0x04 then
          match parsed with
          | .End => pure (.Instruction (.If bt in1 none))
          | .Else => do
            let (in2, _) ← parseSeq (parseWithin d n) n false []
            pure (.Instruction (.If bt in1 (some in2)))
          | .Instruction _ => Dec.panic              -- `unreachable!()`
        else Dec.panic                               -- `unreachable!()`
      else if op = 0x1F then do
        let bt ← BlockType.decode.mapErr (fun e => ParseError.Control (.BlockType e))
        let c ← (decodeList Catch.decode).mapErr
          (fun e => ParseError.Control (.DecodeCatchListError e))
        let (ins, _) ← parseSeq (parseWithin d n) n false []
        pure (.Instruction (.TryTable bt c ins))
      else do
        let i ← parseSimple op
        pure (.Instruction i)
    | _ => Dec.panic                                 -- `opcode[0]` of a one-byte array

mutual
/-- src/decode/helpers.rs:47-66 `instruction_contains_data_index` as in Verif/Model/Instructions.lean, but with room for
only `d` calls of it on the call stack (the first argument): `none` if a further nested call is made. -/
def containsDataIdxWithin : Nat → Instr → Option Bool
  | 0, _ => none
  | d + 1, i => match i with
    | .MemoryInit _ _ => some true
    | .DataDrop _ => some true
    | .ArrayNewData _ _ => some true
    | .ArrayInitData _ _ => some true
    | .Block _ body => anyContainsDataIdxWithin d body
    | .Loop _ body => anyContainsDataIdxWithin d body
    | .TryTable _ _ body => anyContainsDataIdxWithin d body
    | .If _ thenBody elseBody =>
      match anyContainsDataIdxWithin d thenBody with
      | none => none
      | some true => some true
      | some false => optContainsDataIdxWithin d elseBody
    | _ => some false
/-- src/decode/helpers.rs:56, 59, 62: `body.iter().any(instruction_contains_data_index)` stops at the first hit -/
def anyContainsDataIdxWithin : Nat → List Instr → Option Bool
  | _, [] => some false
  | d, i :: is =>
    match containsDataIdxWithin d i with
    | none => none
    | some true => some true
    | some false => anyContainsDataIdxWithin d is
/-- src/decode/helpers.rs:60-62: `else_body.as_ref().is_some_and(|body| body.iter().any(instruction_contains_data_index))` -/
def optContainsDataIdxWithin : Nat → Option (List Instr) → Option Bool
  | _, none => some false
  | d, some body => anyContainsDataIdxWithin d body
end

/-- The loop of `decode_expr` (src/decode/helpers.rs:29-42); `p` is `Instruction::parse`, and there is room for `d` nested calls
of `instruction_contains_data_index`. -/
def decodeExprLoopWithin (d : Nat) (p : Dec R ParseError ParseResult) :
    Nat → List Instr → Bool → Dec R ParseExpressionError (Expr × Bool)
  | 0, _, _ => Dec.outOfFuel
  | n + 1, body, encountered_data_index => do
    let parsed ← p.mapErr ParseExpressionError.ParseInstruction
    match parsed with
    | .Instruction ins =>
      match containsDataIdxWithin d ins with
      | none => Dec.outOfFuel
      | some c => decodeExprLoopWithin d p n (body ++ [ins]) (if c then true else encountered_data_index)
    | .End => pure (body, encountered_data_index)
    | .Else => Dec.err .UnexpectedElse

/-- src/decode/helpers.rs:23-45 `decode_expr` with room for `d` nested calls of `Instruction::parse` or of
`instruction_contains_data_index`. -/
def decodeExprWithin (d : Nat) : Dec R ParseExpressionError (Expr × Bool) := fun r =>
  decodeExprLoopWithin d (parseWithin d (Read.weight r + 1)) (Read.weight r + 1) [] false r

/-! ### Generated by tools/gen_depth.py -/
/-- src/decode/sections/code.rs:57-61: the part of `parse_code` inside `reader.take(size)`; with room for `d` nested calls of `Instruction::parse` -/
def parseCodeBodyWithin (d : Nat) : Dec R DecodeCodeError (List Local × Expr × Bool) := do
  let (locals, _) ← (decodeListS parseCodeLocal 0).mapErr DecodeCodeError.DecodeLocalsVector
  let (expr, encountered_data_index) ← (decodeExprWithin d).mapErr DecodeCodeError.DecodeFunctionBody
  pure (locals, expr, encountered_data_index)

/-- src/decode/sections/code.rs:50-77 `parse_code`; with room for `d` nested calls of `Instruction::parse` -/
def parseCodeWithin (d : Nat) : Dec R DecodeCodeError Code := do
  let size ← decodeU32.mapErr DecodeCodeError.DecodeFunctionSize
  let ((locals, expr, encountered_data_index), limit) ← Dec.withTake size.toNat (parseCodeBodyWithin d)
  if limit ≠ 0 then
    Dec.err (.EntrySizeMismatch size (UInt64.ofNat limit) (UInt64.ofNat (size.toNat - limit)))
  else pure ⟨size, locals, expr, encountered_data_index⟩

/-- src/decode/sections/code.rs:15-19 `decode_code_section`; with room for `d` nested calls of `Instruction::parse` -/
def decodeCodeSectionWithin (d : Nat) : Dec R DecodeCodeSectionError (List Code) :=
  (decodeList (parseCodeWithin d)).mapErr DecodeCodeSectionError.DecodeList

/-- `let (e, _) = decode_expr(reader)?` at src/decode/sections/data.rs:48, 60, table.rs:48, global.rs:31
and element.rs:72, 94, 112, 135; with room for `d` nested calls of `Instruction::parse` -/
def decodeExprWithin' (d : Nat) : Dec R ParseExpressionError Expr := do
  let (e, _) ← (decodeExprWithin d)
  pure e

/-- src/decode/sections/data.rs:42-74 `parse_data`; with room for `d` nested calls of `Instruction::parse` -/
def parseDataWithin (d : Nat) : Dec R DecodeDataSegmentError Data := do
  let n ← decodeU32.mapErr DecodeDataSegmentError.DecodeBitfield
  if n = 0 then do
    let e ← (decodeExprWithin' d).mapErr DecodeDataSegmentError.DecodeOffsetExpr
    let init ← decodeByteVector.mapErr DecodeDataSegmentError.DecodeInitVector
    pure ⟨init, .Active ⟨0⟩ e⟩
  else if n = 1 then do
    let init ← decodeByteVector.mapErr DecodeDataSegmentError.DecodeInitVector
    pure ⟨init, .Passive⟩
  else if n = 2 then do
    let x ← MemIdx.decode.mapErr DecodeDataSegmentError.DecodeMemIdx
    let e ← (decodeExprWithin' d).mapErr DecodeDataSegmentError.DecodeOffsetExpr
    let init ← decodeByteVector.mapErr DecodeDataSegmentError.DecodeInitVector
    pure ⟨init, .Active x e⟩
  else Dec.err (.InvalidBitfield n)

/-- src/decode/sections/data.rs:18-22 `decode_data_section`; with room for `d` nested calls of `Instruction::parse` -/
def decodeDataSectionWithin (d : Nat) : Dec R DecodeDataSectionError (List Data) :=
  (decodeList (parseDataWithin d)).mapErr DecodeDataSectionError.DecodeList

/-- src/decode/sections/element.rs:113, 129, 137, 151:
`decode_list(reader, |r| decode_expr(r).map(|(expr, _)| expr)).map_err(..)?` in `parse_elem`; with room for `d` nested calls of `Instruction::parse` -/
def elemExprsWithin (d : Nat) : Dec R DecodeElementError (List Expr) :=
  (decodeList (decodeExprWithin' d)).mapErr DecodeElementError.DecodeInit

/-- src/decode/sections/element.rs:61-160 `parse_elem`; with room for `d` nested calls of `Instruction::parse` -/
def parseElemWithin (d : Nat) : Dec R DecodeElementError Elem := do
  let bitfield ← decodeU32.mapErr DecodeElementError.DecodeBitfield
  if bitfield = 0 then do
    let e ← (decodeExprWithin' d).mapErr DecodeElementError.DecodeOffsetExpression
    let y ← elemFuncs
    pure ⟨⟨false, .Ht .Func⟩, funcidxIntoReffunc y, .Active ⟨0⟩ e⟩
  else if bitfield = 1 then do
    let rt ← parseElemKind.mapErr DecodeElementError.DecodeElementKind
    let y ← elemFuncs
    pure ⟨rt, funcidxIntoReffunc y, .Passive⟩
  else if bitfield = 2 then do
    let x ← TableIdx.decode.mapErr DecodeElementError.DecodeTableIdx
    let e ← (decodeExprWithin' d).mapErr DecodeElementError.DecodeElementExpression
    let rt ← parseElemKind.mapErr DecodeElementError.DecodeElementKind
    let y ← elemFuncs
    pure ⟨rt, funcidxIntoReffunc y, .Active x e⟩
  else if bitfield = 3 then do
    let rt ← parseElemKind.mapErr DecodeElementError.DecodeElementKind
    let y ← elemFuncs
    pure ⟨rt, funcidxIntoReffunc y, .Declare⟩
  else if bitfield = 4 then do
    let e ← (decodeExprWithin' d).mapErr DecodeElementError.DecodeOffsetExpression
    let el ← (elemExprsWithin d)
    pure ⟨⟨true, .Ht .Func⟩, el, .Active ⟨0⟩ e⟩
  else if bitfield = 5 then do
    let rt ← RefType.decode.mapErr DecodeElementError.DecodeReferenceType
    let el ← (elemExprsWithin d)
    pure ⟨rt, el, .Passive⟩
  else if bitfield = 6 then do
    let x ← TableIdx.decode.mapErr DecodeElementError.DecodeTableIdx
    let e ← (decodeExprWithin' d).mapErr DecodeElementError.DecodeOffsetExpression
    let rt ← RefType.decode.mapErr DecodeElementError.DecodeReferenceType
    let el ← (elemExprsWithin d)
    pure ⟨rt, el, .Active x e⟩
  else if bitfield = 7 then do
    let rt ← RefType.decode.mapErr DecodeElementError.DecodeReferenceType
    let el ← (elemExprsWithin d)
    pure ⟨rt, el, .Declare⟩
  else Dec.err (.InvalidBitfield bitfield)

/-- src/decode/sections/element.rs:21-25 `decode_element_section`; with room for `d` nested calls of `Instruction::parse` -/
def decodeElementSectionWithin (d : Nat) : Dec R DecodeElementSectionError (List Elem) :=
  (decodeList (parseElemWithin d)).mapErr DecodeElementSectionError.DecodeList

/-- src/decode/sections/global.rs:29-34 `parse_global`; with room for `d` nested calls of `Instruction::parse` -/
def parseGlobalWithin (d : Nat) : Dec R DecodeGlobalError Global := do
  let type ← GlobalType.decode.mapErr DecodeGlobalError.DecodeGlobalType
  let init ← (decodeExprWithin' d).mapErr DecodeGlobalError.DecodeInit
  pure ⟨type, init⟩

/-- src/decode/sections/global.rs:14-18 `decode_global_section`; with room for `d` nested calls of `Instruction::parse` -/
def decodeGlobalSectionWithin (d : Nat) : Dec R DecodeGlobalSectionError (List Global) :=
  (decodeList (parseGlobalWithin d)).mapErr DecodeGlobalSectionError.DecodeList

/-- src/decode/sections/table.rs:40-58 `decode_table`; with room for `d` nested calls of `Instruction::parse` -/
def decodeTableWithin (d : Nat) : Dec R DecodeTableError Table := do
  let byte ← readByte.mapErr DecodeTableError.Io
  if byte = 0x40 then do
    let b ← readByte.mapErr DecodeTableError.Io
    if b ≠ 0x00 then Dec.err (.UnexpectedMarkerByte b)
    else do
      let tt ← TableType.decode.mapErr DecodeTableError.DecodeTableType
      let e ← (decodeExprWithin' d).mapErr DecodeTableError.DecodeExpression
      pure ⟨tt, e⟩
  else do
    let tt ← (Dec.withChain byte TableType.decode).mapErr DecodeTableError.DecodeTableType
    pure ⟨tt, [.RefNull tt.reftype.ht]⟩

/-- src/decode/sections/table.rs:16-20 `decode_table_section`; with room for `d` nested calls of `Instruction::parse` -/
def decodeTableSectionWithin (d : Nat) : Dec R DecodeTableSectionError (List Table) :=
  (decodeList (decodeTableWithin d)).mapErr DecodeTableSectionError.DecodeList

/-- src/decode/module.rs:229-302: the `match section_kind`, run on `input.by_ref().take(size)`; with room for `d` nested calls of `Instruction::parse` -/
def decodeSectionBodyWithin (d : Nat) (kind : SectionKind) (st : LoopState) :
    Dec R DecodeModuleError LoopState :=
  let m := st.module
  match kind with
  | .Custom => do
    let s ← decodeSectionCustom.mapErr DecodeModuleError.DecodeCustomSection
    pure { st with module := { m with custom_sections := m.custom_sections ++ [s] } }
  | .Type => do
    let types ← decodeTypeSection.mapErr DecodeModuleError.DecodeTypeSection
    pure { st with module := { m with types } }
  | .Import => do
    let imports ← decodeImportSection.mapErr DecodeModuleError.DecodeImportSection
    pure { st with module := { m with imports } }
  | .Function => do
    let idxs ← decodeFunctionSection.mapErr DecodeModuleError.DecodeFunctionSection
    pure { st with module :=
      { m with funcs := m.funcs ++ idxs.map (fun type_idx => ⟨type_idx, [], []⟩) } }
  | .Table => do
    let tables ← (decodeTableSectionWithin d).mapErr DecodeModuleError.DecodeTableSection
    pure { st with module := { m with tables } }
  | .Memory => do
    let mems ← decodeMemorySection.mapErr DecodeModuleError.DecodeMemorySection
    pure { st with module := { m with mems } }
  | .Global => do
    let globals ← (decodeGlobalSectionWithin d).mapErr DecodeModuleError.DecodeGlobalSection
    pure { st with module := { m with globals } }
  | .Export => do
    let exports ← decodeExportSection.mapErr DecodeModuleError.DecodeExportSection
    pure { st with module := { m with exports } }
  | .Start => do
    let start ← decodeStartSection.mapErr DecodeModuleError.DecodeStartSection
    pure { st with module := { m with start := some start } }
  | .Element => do
    let elems ← (decodeElementSectionWithin d).mapErr DecodeModuleError.DecodeElementSection
    pure { st with module := { m with elems } }
  | .DataCount => do
    let n ← decodeDatacountSection.mapErr DecodeModuleError.DecodeDatacountSection
    pure { st with module := { m with data_count := some n } }
  | .Code => do
    let codes ← (decodeCodeSectionWithin d).mapErr DecodeModuleError.DecodeCodeSection
    if codes.length ≠ m.funcs.length then
      Dec.err (.CodeFuncEntriesLenMismatch codes.length m.funcs.length)
    else do
      let (funcs, enc) ← fillFuncs codes 0 m.funcs st.encountered_data_idx_in_code_section
      pure ⟨{ m with funcs }, true, enc⟩
  | .Data => do
    let datas ← (decodeDataSectionWithin d).mapErr DecodeModuleError.DecodeDataSection
    match m.data_count with
    | some data_count =>
      if datas.length ≠ data_count.toNat then
        Dec.err (.DataCountMismatch datas.length data_count)
      else pure { st with module := { m with datas } }
    | none => pure { st with module := { m with datas } }
  | .Tag => do
    let tags ← decodeTagSection.mapErr DecodeModuleError.DecodeTagSection
    pure { st with module := { m with tags } }

/-- src/decode/module.rs:224-318: one iteration of the section loop, after the header has been
read: order check, contents, size check, bookkeeping. with room for `d` nested calls of `Instruction::parse` -/
def decodeSectionWithin (d : Nat) (h : SectionHeader) (st : LoopState) : Dec R DecodeModuleError LoopState := do
  st.module.validateSectionKindExpected h.kind
  let (st, limit) ← Dec.withTake h.size.toNat ((decodeSectionBodyWithin d) h.kind st)
  if limit ≠ 0 then
    Dec.err (.SectionSizeMismatch h.kind h.size (UInt64.ofNat (h.size.toNat - limit)))
  else
    pure { st with module := { st.module with
      section_headers := st.module.section_headers ++ [h]
      parsed_section_kinds :=
        if h.kind ≠ .Custom then st.module.parsed_section_kinds ++ [h.kind]
        else st.module.parsed_section_kinds } }

/-- src/decode/module.rs:223-319: `while let Some(section_header) = decode_section_header(..)?`.
The `Nat` is the step budget (model artefact). with room for `d` nested calls of `Instruction::parse` -/
def sectionLoopWithin (d : Nat) : Nat → LoopState → Dec R DecodeModuleError LoopState
  | 0, _ => Dec.outOfFuel
  | n + 1, st => do
    let h ← decodeSectionHeader.mapErr DecodeModuleError.DecodeSectionHeader
    match h with
    | none => pure st
    | some h => do
      let st ← (decodeSectionWithin d) h st
      (sectionLoopWithin d) n st

/-- src/decode/module.rs:207-351 `decode_module`; with room for `d` nested calls of `Instruction::parse` -/
def decodeModuleWithin (d : Nat) : Dec R DecodeModuleError Module := fun r =>
  (do
    parsePreamble.mapErr DecodeModuleError.ParsePreamble
    let st ← (sectionLoopWithin d) (Read.weight r + 1) ⟨Module.default, false, false⟩
    finalChecks st : Dec R DecodeModuleError Module) r

end Wadec
