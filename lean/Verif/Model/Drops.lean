import Verif.Model.Usage

/-! Decoding that fails drops what it has decoded so far: the decoders of Verif/Model/Depth (with room for `d` nested calls of
`Instruction::parse`), which on `?` and `return Err(..)` (and in unwinding from a panic) drop the vectors of instructions the function holds, with
room for `q` nested calls of the drop glue of an `Instruction` (Model/Usage); they end in `outOfFuel` if this is not enough (C84).
Not modelled: dropping values without instructions in them. -/

namespace Wadec

variable {R : Type} [Read R]

/-- a step `x` of a function in src/decode that holds the expressions `es`: they are dropped if it is left because `x` fails -/
def holding {ε α : Type} (q : Nat) (es : List Expr) (x : Dec R ε α) : Dec R ε α := fun r =>
  match x r with
  | (.ok v, r') => (.ok v, r')
  | (.fuel, r') => (.fuel, r')
  | o =>
    match eachWithin (dropVecWithin q) es with
    | some _ => o
    | none => (.fuel, o.2)

/-- the expressions `es` are dropped because their place is assigned to (src/decode/module.rs:243-297) -/
def dropping {ε : Type} (q : Nat) (es : List Expr) : Dec R ε Unit := fun r =>
  match eachWithin (dropVecWithin q) es with
  | some _ => (.ok (), r)
  | none => (.fuel, r)

/-- The loops of src/decode/instructions.rs:226-239, 248-257 and 301-308, as `parseSeq` in Model/Instructions: the vector is dropped if
the loop is left by `?` or `return`. -/
def parseSeqDropping (q : Nat) (p : Dec R ParseError ParseResult) :
    Nat → Bool → List Instr → Dec R ParseError (List Instr × ParseResult)
  | 0, _, _ => Dec.outOfFuel
  | n + 1, allowElse, acc => do
    let parsed ← holding q [acc] p
    match parsed with
    | .Instruction i => parseSeqDropping q p n allowElse (acc ++ [i])
    | .End => pure (acc, .End)
    | .Else => if allowElse then pure (acc, .Else) else holding q [acc] (Dec.err (.Control .UnexpectedElse))

/-- src/decode/instructions.rs:203-1012 `Instruction::parse`, as `parseWithin` in Model/Depth; `in1` (line 223) is dropped if the loop at
lines 248-257 fails.  In a nested call there is room for one drop call less. -/
def parseDropping : Nat → Nat → Nat → Dec R ParseError ParseResult
  | 0, _, _ => Dec.outOfFuel
  | _ + 1, _, 0 => Dec.outOfFuel
  | d + 1, q, n + 1 => do
    let opcode ← (readExact 1).mapErr ParseError.ReadOpcode
    match opcode with
    | [op] =>
      if op = 0x0B then pure .End
      else if op = 0x05 then pure .Else
      else if 0x02 ≤ op ∧ op ≤ 0x04 then do
        let bt ← BlockType.decode.mapErr (fun e => ParseError.Control (.BlockType e))
        let (in1, parsed) ← parseSeqDropping (q - 1) (parseDropping d (q - 1) n) n (op == 0x04) []
        if op = 0x02 then pure (.Instruction (.Block bt in1))
        else if op = 0x03 then pure (.Instruction (.Loop bt in1))
        else if op = 0x04 then
          match parsed with
          | .End => pure (.Instruction (.If bt in1 none))
          | .Else => do
            let (in2, _) ← holding (q - 1) [in1] (parseSeqDropping (q - 1) (parseDropping d (q - 1) n) n false [])
            pure (.Instruction (.If bt in1 (some in2)))
          | .Instruction _ => Dec.panic              -- `unreachable!()`
        else Dec.panic                               -- `unreachable!()`
      else if op = 0x1F then do
        let bt ← BlockType.decode.mapErr (fun e => ParseError.Control (.BlockType e))
        let c ← (decodeList Catch.decode).mapErr
          (fun e => ParseError.Control (.DecodeCatchListError e))
        let (ins, _) ← parseSeqDropping (q - 1) (parseDropping d (q - 1) n) n false []
        pure (.Instruction (.TryTable bt c ins))
      else do
        let i ← parseSimple op
        pure (.Instruction i)
    | _ => Dec.panic                                 -- `opcode[0]` of a one-byte array

/-- The loop of `decode_expr` (src/decode/helpers.rs:29-42), as `decodeExprLoopWithin` in Model/Depth -/
def decodeExprLoopDropping (d q : Nat) (p : Dec R ParseError ParseResult) :
    Nat → List Instr → Bool → Dec R ParseExpressionError (Expr × Bool)
  | 0, _, _ => Dec.outOfFuel
  | n + 1, body, encountered_data_index => do
    let parsed ← holding q [body] (p.mapErr ParseExpressionError.ParseInstruction)
    match parsed with
    | .Instruction ins =>
      match containsDataIdxWithin d ins with
      | none => Dec.outOfFuel
      | some c => decodeExprLoopDropping d q p n (body ++ [ins]) (if c then true else encountered_data_index)
    | .End => pure (body, encountered_data_index)
    | .Else => holding q [body] (Dec.err .UnexpectedElse)

/-- src/decode/helpers.rs:23-45 `decode_expr` -/
def decodeExprDropping (d q : Nat) : Dec R ParseExpressionError (Expr × Bool) := fun r =>
  decodeExprLoopDropping d q (parseDropping d q (Read.weight r + 1)) (Read.weight r + 1) [] false r

/-- The loop of `decode_list` (src/decode/helpers.rs:112-118): the elements so far are dropped if one fails; `es` are the expressions
in an element. -/
def decodeListLoopDropping {ε α : Type} (q : Nat) (es : α → List Expr) (f : Dec R ε α) :
    Nat → UInt32 → List α → Dec R (DecodeListError ε) (List α)
  | 0, _, items => pure items
  | n + 1, i, items => do
    let elem ← holding q (items.flatMap es) (f.mapErr (fun err => DecodeListError.ParseElement i err))
    decodeListLoopDropping q es f n (i + 1) (items ++ [elem])

/-- src/decode/helpers.rs:101-121 `decode_list` -/
def decodeListDropping {ε α : Type} (q : Nat) (es : α → List Expr) (f : Dec R ε α) : Dec R (DecodeListError ε) (List α) := do
  let len ← decodeU32.mapErr DecodeListError.DecodeLength
  Dec.reserve len.toNat
  decodeListLoopDropping q es f len.toNat 0 []

/-- the expressions in an element segment, src/core/mod.rs:140-160 -/
def Elem.exprs (e : Elem) : List Expr := e.init ++ match e.mode with | .Active _ o => [o] | _ => []

/-- the expression in a data segment, src/core/mod.rs:113-130 -/
def Data.exprs (d : Data) : List Expr := match d.mode with | .Active _ o => [o] | _ => []

/-- src/decode/module.rs:272-284: `module.funcs[i].body = code.expr` drops the old body; if `funcs[i]` is out of bounds, unwinding drops
the functions' bodies and what is left of `codes`. -/
def fillFuncsDropping (q : Nat) : List Code → Nat → List Func → Bool → Dec R DecodeModuleError (List Func × Bool)
  | [], _, funcs, enc => pure (funcs, enc)
  | code :: codes, i, funcs, enc =>
    match funcs[i]? with
    | none => holding q (funcs.map (·.body) ++ (code :: codes).map (·.expr)) Dec.panic
    | some f => do
      dropping q [f.body]
      fillFuncsDropping q codes (i + 1)
        (funcs.set i { f with locals := f.locals ++ expandLocals code.locals, body := code.expr })
        (if code.encountered_data_index then true else enc)

/-- src/decode/sections/code.rs:57-61: the part of `parse_code` inside `reader.take(size)`; what is held when a step fails is dropped -/
def parseCodeBodyDropping (d q : Nat) : Dec R DecodeCodeError (List Local × Expr × Bool) := do
  let (locals, _) ← (decodeListS parseCodeLocal 0).mapErr DecodeCodeError.DecodeLocalsVector
  let (expr, encountered_data_index) ← (decodeExprDropping d q).mapErr DecodeCodeError.DecodeFunctionBody
  pure (locals, expr, encountered_data_index)

/-- src/decode/sections/code.rs:50-77 `parse_code`; what is held when a step fails is dropped -/
def parseCodeDropping (d q : Nat) : Dec R DecodeCodeError Code := do
  let size ← decodeU32.mapErr DecodeCodeError.DecodeFunctionSize
  let ((locals, expr, encountered_data_index), limit) ← Dec.withTake size.toNat (parseCodeBodyDropping d q)
  if limit ≠ 0 then
    holding q [expr] <| Dec.err (.EntrySizeMismatch size (UInt64.ofNat limit) (UInt64.ofNat (size.toNat - limit)))
  else pure ⟨size, locals, expr, encountered_data_index⟩

/-- src/decode/sections/code.rs:15-19 `decode_code_section`; what is held when a step fails is dropped -/
def decodeCodeSectionDropping (d q : Nat) : Dec R DecodeCodeSectionError (List Code) :=
  (decodeListDropping q (fun c => [c.expr]) (parseCodeDropping d q)).mapErr DecodeCodeSectionError.DecodeList

/-- `let (e, _) = decode_expr(reader)?` at src/decode/sections/data.rs:48, 60, table.rs:48, global.rs:31
and element.rs:72, 94, 112, 135; what is held when a step fails is dropped -/
def decodeExprDropping' (d q : Nat) : Dec R ParseExpressionError Expr := do
  let (e, _) ← (decodeExprDropping d q)
  pure e

/-- src/decode/sections/data.rs:42-74 `parse_data`; what is held when a step fails is dropped -/
def parseDataDropping (d q : Nat) : Dec R DecodeDataSegmentError Data := do
  let n ← decodeU32.mapErr DecodeDataSegmentError.DecodeBitfield
  if n = 0 then do
    let e ← (decodeExprDropping' d q).mapErr DecodeDataSegmentError.DecodeOffsetExpr
    let init ← holding q [e] (decodeByteVector.mapErr DecodeDataSegmentError.DecodeInitVector)
    pure ⟨init, .Active ⟨0⟩ e⟩
  else if n = 1 then do
    let init ← decodeByteVector.mapErr DecodeDataSegmentError.DecodeInitVector
    pure ⟨init, .Passive⟩
  else if n = 2 then do
    let x ← MemIdx.decode.mapErr DecodeDataSegmentError.DecodeMemIdx
    let e ← (decodeExprDropping' d q).mapErr DecodeDataSegmentError.DecodeOffsetExpr
    let init ← holding q [e] (decodeByteVector.mapErr DecodeDataSegmentError.DecodeInitVector)
    pure ⟨init, .Active x e⟩
  else Dec.err (.InvalidBitfield n)

/-- src/decode/sections/data.rs:18-22 `decode_data_section`; what is held when a step fails is dropped -/
def decodeDataSectionDropping (d q : Nat) : Dec R DecodeDataSectionError (List Data) :=
  (decodeListDropping q Data.exprs (parseDataDropping d q)).mapErr DecodeDataSectionError.DecodeList

/-- src/decode/sections/element.rs:113, 129, 137, 151:
`decode_list(reader, |r| decode_expr(r).map(|(expr, _)| expr)).map_err(..)?` in `parse_elem`; what is held when a step fails is dropped -/
def elemExprsDropping (d q : Nat) : Dec R DecodeElementError (List Expr) :=
  (decodeListDropping q (fun e => [e]) (decodeExprDropping' d q)).mapErr DecodeElementError.DecodeInit

/-- src/decode/sections/element.rs:61-160 `parse_elem`; what is held when a step fails is dropped -/
def parseElemDropping (d q : Nat) : Dec R DecodeElementError Elem := do
  let bitfield ← decodeU32.mapErr DecodeElementError.DecodeBitfield
  if bitfield = 0 then do
    let e ← (decodeExprDropping' d q).mapErr DecodeElementError.DecodeOffsetExpression
    let y ← holding q [e] <| elemFuncs
    pure ⟨⟨false, .Ht .Func⟩, funcidxIntoReffunc y, .Active ⟨0⟩ e⟩
  else if bitfield = 1 then do
    let rt ← parseElemKind.mapErr DecodeElementError.DecodeElementKind
    let y ← elemFuncs
    pure ⟨rt, funcidxIntoReffunc y, .Passive⟩
  else if bitfield = 2 then do
    let x ← TableIdx.decode.mapErr DecodeElementError.DecodeTableIdx
    let e ← (decodeExprDropping' d q).mapErr DecodeElementError.DecodeElementExpression
    let rt ← holding q [e] <| parseElemKind.mapErr DecodeElementError.DecodeElementKind
    let y ← holding q [e] <| elemFuncs
    pure ⟨rt, funcidxIntoReffunc y, .Active x e⟩
  else if bitfield = 3 then do
    let rt ← parseElemKind.mapErr DecodeElementError.DecodeElementKind
    let y ← elemFuncs
    pure ⟨rt, funcidxIntoReffunc y, .Declare⟩
  else if bitfield = 4 then do
    let e ← (decodeExprDropping' d q).mapErr DecodeElementError.DecodeOffsetExpression
    let el ← holding q [e] <| (elemExprsDropping d q)
    pure ⟨⟨true, .Ht .Func⟩, el, .Active ⟨0⟩ e⟩
  else if bitfield = 5 then do
    let rt ← RefType.decode.mapErr DecodeElementError.DecodeReferenceType
    let el ← (elemExprsDropping d q)
    pure ⟨rt, el, .Passive⟩
  else if bitfield = 6 then do
    let x ← TableIdx.decode.mapErr DecodeElementError.DecodeTableIdx
    let e ← (decodeExprDropping' d q).mapErr DecodeElementError.DecodeOffsetExpression
    let rt ← holding q [e] <| RefType.decode.mapErr DecodeElementError.DecodeReferenceType
    let el ← holding q [e] <| (elemExprsDropping d q)
    pure ⟨rt, el, .Active x e⟩
  else if bitfield = 7 then do
    let rt ← RefType.decode.mapErr DecodeElementError.DecodeReferenceType
    let el ← (elemExprsDropping d q)
    pure ⟨rt, el, .Declare⟩
  else Dec.err (.InvalidBitfield bitfield)

/-- src/decode/sections/element.rs:21-25 `decode_element_section`; what is held when a step fails is dropped -/
def decodeElementSectionDropping (d q : Nat) : Dec R DecodeElementSectionError (List Elem) :=
  (decodeListDropping q Elem.exprs (parseElemDropping d q)).mapErr DecodeElementSectionError.DecodeList

/-- src/decode/sections/global.rs:29-34 `parse_global`; what is held when a step fails is dropped -/
def parseGlobalDropping (d q : Nat) : Dec R DecodeGlobalError Global := do
  let type ← GlobalType.decode.mapErr DecodeGlobalError.DecodeGlobalType
  let init ← (decodeExprDropping' d q).mapErr DecodeGlobalError.DecodeInit
  pure ⟨type, init⟩

/-- src/decode/sections/global.rs:14-18 `decode_global_section`; what is held when a step fails is dropped -/
def decodeGlobalSectionDropping (d q : Nat) : Dec R DecodeGlobalSectionError (List Global) :=
  (decodeListDropping q (fun g => [g.init]) (parseGlobalDropping d q)).mapErr DecodeGlobalSectionError.DecodeList

/-- src/decode/sections/table.rs:40-58 `decode_table`; what is held when a step fails is dropped -/
def decodeTableDropping (d q : Nat) : Dec R DecodeTableError Table := do
  let byte ← readByte.mapErr DecodeTableError.Io
  if byte = 0x40 then do
    let b ← readByte.mapErr DecodeTableError.Io
    if b ≠ 0x00 then Dec.err (.UnexpectedMarkerByte b)
    else do
      let tt ← TableType.decode.mapErr DecodeTableError.DecodeTableType
      let e ← (decodeExprDropping' d q).mapErr DecodeTableError.DecodeExpression
      pure ⟨tt, e⟩
  else do
    let tt ← (Dec.withChain byte TableType.decode).mapErr DecodeTableError.DecodeTableType
    pure ⟨tt, [.RefNull tt.reftype.ht]⟩

/-- src/decode/sections/table.rs:16-20 `decode_table_section`; what is held when a step fails is dropped -/
def decodeTableSectionDropping (d q : Nat) : Dec R DecodeTableSectionError (List Table) :=
  (decodeListDropping q (fun t => [t.init]) (decodeTableDropping d q)).mapErr DecodeTableSectionError.DecodeList

/-- src/decode/module.rs:229-302: the `match section_kind`, run on `input.by_ref().take(size)`; what is held when a step fails is dropped -/
def decodeSectionBodyDropping (d q : Nat) (kind : SectionKind) (st : LoopState) :
    Dec R DecodeModuleError LoopState :=
  let m := st.module
  match kind with
  | .Custom => do
    let s ← decodeSectionCustom.mapErr DecodeModuleError.DecodeCustomSection
    pure { st with module := { m with custom_sections := m.custom_sections ++ [s] } }
  | .Type => do
    let types ← decodeTypeSection.mapErr DecodeModuleError.DecodeTypeSection
    pure { st with module := { m with types } }
  | .Import => do
    let imports ← decodeImportSection.mapErr DecodeModuleError.DecodeImportSection
    pure { st with module := { m with imports } }
  | .Function => do
    let idxs ← decodeFunctionSection.mapErr DecodeModuleError.DecodeFunctionSection
    pure { st with module :=
      { m with funcs := m.funcs ++ idxs.map (fun type_idx => ⟨type_idx, [], []⟩) } }
  | .Table => do
    let tables ← (decodeTableSectionDropping d q).mapErr DecodeModuleError.DecodeTableSection
    dropping q (m.tables.map (·.init))
    pure { st with module := { m with tables } }
  | .Memory => do
    let mems ← decodeMemorySection.mapErr DecodeModuleError.DecodeMemorySection
    pure { st with module := { m with mems } }
  | .Global => do
    let globals ← (decodeGlobalSectionDropping d q).mapErr DecodeModuleError.DecodeGlobalSection
    dropping q (m.globals.map (·.init))
    pure { st with module := { m with globals } }
  | .Export => do
    let exports ← decodeExportSection.mapErr DecodeModuleError.DecodeExportSection
    pure { st with module := { m with exports } }
  | .Start => do
    let start ← decodeStartSection.mapErr DecodeModuleError.DecodeStartSection
    pure { st with module := { m with start := some start } }
  | .Element => do
    let elems ← (decodeElementSectionDropping d q).mapErr DecodeModuleError.DecodeElementSection
    dropping q (m.elems.flatMap Elem.exprs)
    pure { st with module := { m with elems } }
  | .DataCount => do
    let n ← decodeDatacountSection.mapErr DecodeModuleError.DecodeDatacountSection
    pure { st with module := { m with data_count := some n } }
  | .Code => do
    let codes ← (decodeCodeSectionDropping d q).mapErr DecodeModuleError.DecodeCodeSection
    if codes.length ≠ m.funcs.length then
      holding q (codes.map (·.expr)) <| Dec.err (.CodeFuncEntriesLenMismatch codes.length m.funcs.length)
    else do
      let (funcs, enc) ← fillFuncsDropping q codes 0 m.funcs st.encountered_data_idx_in_code_section
      pure ⟨{ m with funcs }, true, enc⟩
  | .Data => do
    let datas ← (decodeDataSectionDropping d q).mapErr DecodeModuleError.DecodeDataSection
    match m.data_count with
    | some data_count =>
      if datas.length ≠ data_count.toNat then
        holding q (datas.flatMap Data.exprs) <| Dec.err (.DataCountMismatch datas.length data_count)
      else do
        dropping q (m.datas.flatMap Data.exprs)
        pure { st with module := { m with datas } }
    | none => do
      dropping q (m.datas.flatMap Data.exprs)
      pure { st with module := { m with datas } }
  | .Tag => do
    let tags ← decodeTagSection.mapErr DecodeModuleError.DecodeTagSection
    pure { st with module := { m with tags } }

/-- src/decode/module.rs:224-318: one iteration of the section loop, after the header has been
read: order check, contents, size check, bookkeeping. what is held when a step fails is dropped -/
def decodeSectionDropping (d q : Nat) (h : SectionHeader) (st : LoopState) : Dec R DecodeModuleError LoopState := do
  holding q st.module.exprs (st.module.validateSectionKindExpected h.kind)
  let (st, limit) ← holding q st.module.exprs (Dec.withTake h.size.toNat ((decodeSectionBodyDropping d q) h.kind st))
  if limit ≠ 0 then
    holding q st.module.exprs <| Dec.err (.SectionSizeMismatch h.kind h.size (UInt64.ofNat (h.size.toNat - limit)))
  else
    pure { st with module := { st.module with
      section_headers := st.module.section_headers ++ [h]
      parsed_section_kinds :=
        if h.kind ≠ .Custom then st.module.parsed_section_kinds ++ [h.kind]
        else st.module.parsed_section_kinds } }

/-- src/decode/module.rs:223-319: `while let Some(section_header) = decode_section_header(..)?`.
The `Nat` is the step budget (model artefact). what is held when a step fails is dropped -/
def sectionLoopDropping (d q : Nat) : Nat → LoopState → Dec R DecodeModuleError LoopState
  | 0, _ => Dec.outOfFuel
  | n + 1, st => do
    let h ← holding q st.module.exprs (decodeSectionHeader.mapErr DecodeModuleError.DecodeSectionHeader)
    match h with
    | none => pure st
    | some h => do
      let st ← (decodeSectionDropping d q) h st
      (sectionLoopDropping d q) n st

/-- src/decode/module.rs:207-351 `decode_module`; what is held when a step fails is dropped -/
def decodeModuleDropping (d q : Nat) : Dec R DecodeModuleError Module := fun r =>
  (do
    parsePreamble.mapErr DecodeModuleError.ParsePreamble
    let st ← (sectionLoopDropping d q) (Read.weight r + 1) ⟨Module.default, false, false⟩
    holding q st.module.exprs (finalChecks st) : Dec R DecodeModuleError Module) r

end Wadec
