import Verif.Model.Instructions

/-! Model of src/decode/sections/*.rs. -/

namespace Wadec

variable {R : Type} [Read R]

/-! ### src/decode/sections/code.rs -/

/-- src/decode/sections/code.rs:79-83 `Local` -/
structure Local where
  count : UInt32
  t : ValType
  deriving DecidableEq, Repr

/-- src/decode/sections/code.rs:21-27 `Code` -/
structure Code where
  size : UInt32
  locals : List Local
  expr : Expr
  encountered_data_index : Bool
  deriving Repr

/-- `u64::from(u32::MAX)` (src/decode/sections/code.rs:55) -/
def maxLocals : UInt64 := 4294967295

/-- src/decode/sections/code.rs:97-116 `parse_code_local`; the `&mut expanded_locals` argument is
threaded as a state.  `+=` panics (checked build) if the sum overflows. -/
def parseCodeLocal (expanded_locals : UInt64) : Dec R DecodeCodeLocalsError (Local × UInt64) := do
  let count ← decodeU32.mapErr DecodeCodeLocalsError.DecodeLocalsCount
  if 2 ^ 64 ≤ expanded_locals.toNat + count.toNat then Dec.panic
  else do
    let expanded_locals := expanded_locals + count.toUInt64
    if maxLocals < expanded_locals then Dec.err (.LocalsCountOutOfBound maxLocals expanded_locals)
    else do
      let t ← ValType.decode.mapErr DecodeCodeLocalsError.DecodeLocalValType
      pure (⟨count, t⟩, expanded_locals)

/-- src/decode/sections/code.rs:57-61: the part of `parse_code` inside `reader.take(size)` -/
def parseCodeBody : Dec R DecodeCodeError (List Local × Expr × Bool) := do
  let (locals, _) ← (decodeListS parseCodeLocal 0).mapErr DecodeCodeError.DecodeLocalsVector
  let (expr, encountered_data_index) ← decodeExpr.mapErr DecodeCodeError.DecodeFunctionBody
  pure (locals, expr, encountered_data_index)

/-- src/decode/sections/code.rs:50-77 `parse_code` -/
def parseCode : Dec R DecodeCodeError Code := do
  let size ← decodeU32.mapErr DecodeCodeError.DecodeFunctionSize
  let ((locals, expr, encountered_data_index), limit) ← Dec.withTake size.toNat parseCodeBody
  if limit ≠ 0 then
    Dec.err (.EntrySizeMismatch size (UInt64.ofNat limit) (UInt64.ofNat (size.toNat - limit)))
  else pure ⟨size, locals, expr, encountered_data_index⟩

/-- src/decode/sections/code.rs:15-19 `decode_code_section` -/
def decodeCodeSection : Dec R DecodeCodeSectionError (List Code) :=
  (decodeList parseCode).mapErr DecodeCodeSectionError.DecodeList

/-! ### src/decode/sections/custom.rs -/

/-- src/decode/sections/custom.rs:15-23 `decode_section_custom` -/
def decodeSectionCustom : Dec R DecodeCustomSectionError CustomSection := do
  let name ← decodeName.mapErr DecodeCustomSectionError.DecodeName
  let contents ← readToEnd.mapErr DecodeCustomSectionError.Io
  pure ⟨name, contents⟩

/-! ### src/decode/sections/data.rs, data_count.rs -/

/-- `let (e, _) = decode_expr(reader)?` at src/decode/sections/data.rs:48, 60, table.rs:48, global.rs:31
and element.rs:72, 94, 112, 135 -/
def decodeExpr' : Dec R ParseExpressionError Expr := do
  let (e, _) ← decodeExpr
  pure e

/-- src/decode/sections/data.rs:42-74 `parse_data` -/
def parseData : Dec R DecodeDataSegmentError Data := do
  let n ← decodeU32.mapErr DecodeDataSegmentError.DecodeBitfield
  if n = 0 then do
    let e ← decodeExpr'.mapErr DecodeDataSegmentError.DecodeOffsetExpr
    let init ← decodeByteVector.mapErr DecodeDataSegmentError.DecodeInitVector
    pure ⟨init, .Active ⟨0⟩ e⟩
  else if n = 1 then do
    let init ← decodeByteVector.mapErr DecodeDataSegmentError.DecodeInitVector
    pure ⟨init, .Passive⟩
  else if n = 2 then do
    let x ← MemIdx.decode.mapErr DecodeDataSegmentError.DecodeMemIdx
    let e ← decodeExpr'.mapErr DecodeDataSegmentError.DecodeOffsetExpr
    let init ← decodeByteVector.mapErr DecodeDataSegmentError.DecodeInitVector
    pure ⟨init, .Active x e⟩
  else Dec.err (.InvalidBitfield n)

/-- src/decode/sections/data.rs:18-22 `decode_data_section` -/
def decodeDataSection : Dec R DecodeDataSectionError (List Data) :=
  (decodeList parseData).mapErr DecodeDataSectionError.DecodeList

/-- src/decode/sections/data_count.rs:11-15 `decode_datacount_section` -/
def decodeDatacountSection : Dec R DecodeDataCountSectionError UInt32 :=
  decodeU32.mapErr DecodeDataCountSectionError.DecodeDataSegmentCount

/-! ### src/decode/sections/element.rs -/

/-- src/decode/sections/element.rs:175-187 `parse_elemkind` -/
def parseElemKind : Dec R DecodeElementKindError RefType := do
  let b ← readByte.mapErr DecodeElementKindError.Io
  if b ≠ 0x00 then Dec.err (.InvalidElemKind b)
  else pure ⟨true, .Ht .Func⟩

/-- src/decode/sections/element.rs:64-68 `funcidx_into_reffunc` -/
def funcidxIntoReffunc (idxs : List FuncIdx) : List Expr :=
  idxs.map (fun idx => [Instr.RefFunc idx])

/-- src/decode/sections/element.rs:73, 88, 96, 108: `decode_list(reader, FuncIdx::decode)?` in `parse_elem` -/
def elemFuncs : Dec R DecodeElementError (List FuncIdx) :=
  (decodeList FuncIdx.decode).mapErr DecodeElementError.DecodeFuncIdxVector

/-- src/decode/sections/element.rs:113, 129, 137, 151:
`decode_list(reader, |r| decode_expr(r).map(|(expr, _)| expr)).map_err(..)?` in `parse_elem` -/
def elemExprs : Dec R DecodeElementError (List Expr) :=
  (decodeList decodeExpr').mapErr DecodeElementError.DecodeInit

/-- src/decode/sections/element.rs:61-160 `parse_elem` -/
def parseElem : Dec R DecodeElementError Elem := do
  let bitfield ← decodeU32.mapErr DecodeElementError.DecodeBitfield
  if bitfield = 0 then do
    let e ← decodeExpr'.mapErr DecodeElementError.DecodeOffsetExpression
    let y ← elemFuncs
    pure ⟨⟨false, .Ht .Func⟩, funcidxIntoReffunc y, .Active ⟨0⟩ e⟩
  else if bitfield = 1 then do
    let rt ← parseElemKind.mapErr DecodeElementError.DecodeElementKind
    let y ← elemFuncs
    pure ⟨rt, funcidxIntoReffunc y, .Passive⟩
  else if bitfield = 2 then do
    let x ← TableIdx.decode.mapErr DecodeElementError.DecodeTableIdx
    let e ← decodeExpr'.mapErr DecodeElementError.DecodeElementExpression
    let rt ← parseElemKind.mapErr DecodeElementError.DecodeElementKind
    let y ← elemFuncs
    pure ⟨rt, funcidxIntoReffunc y, .Active x e⟩
  else if bitfield = 3 then do
    let rt ← parseElemKind.mapErr DecodeElementError.DecodeElementKind
    let y ← elemFuncs
    pure ⟨rt, funcidxIntoReffunc y, .Declare⟩
  else if bitfield = 4 then do
    let e ← decodeExpr'.mapErr DecodeElementError.DecodeOffsetExpression
    let el ← elemExprs
    pure ⟨⟨true, .Ht .Func⟩, el, .Active ⟨0⟩ e⟩
  else if bitfield = 5 then do
    let rt ← RefType.decode.mapErr DecodeElementError.DecodeReferenceType
    let el ← elemExprs
    pure ⟨rt, el, .Passive⟩
  else if bitfield = 6 then do
    let x ← TableIdx.decode.mapErr DecodeElementError.DecodeTableIdx
    let e ← decodeExpr'.mapErr DecodeElementError.DecodeOffsetExpression
    let rt ← RefType.decode.mapErr DecodeElementError.DecodeReferenceType
    let el ← elemExprs
    pure ⟨rt, el, .Active x e⟩
  else if bitfield = 7 then do
    let rt ← RefType.decode.mapErr DecodeElementError.DecodeReferenceType
    let el ← elemExprs
    pure ⟨rt, el, .Declare⟩
  else Dec.err (.InvalidBitfield bitfield)

/-- src/decode/sections/element.rs:21-25 `decode_element_section` -/
def decodeElementSection : Dec R DecodeElementSectionError (List Elem) :=
  (decodeList parseElem).mapErr DecodeElementSectionError.DecodeList

/-! ### src/decode/sections/export.rs -/

/-- src/decode/sections/export.rs:57-66 `ExternIdx::from` -/
def ExternIdx.from (b : UInt8) (idx : UInt32) : Dec R InvalidExportDescMarkerByte ExternIdx :=
  if b = 0x00 then pure (.Func ⟨idx⟩)
  else if b = 0x01 then pure (.Table ⟨idx⟩)
  else if b = 0x02 then pure (.Mem ⟨idx⟩)
  else if b = 0x03 then pure (.Global ⟨idx⟩)
  else if b = 0x04 then pure (.Tag ⟨idx⟩)
  else Dec.err ⟨b⟩

/-- src/decode/sections/export.rs:37-48 `parse_export` -/
def parseExport : Dec R DecodeExportError Export := do
  let name ← decodeName.mapErr DecodeExportError.DecodeName
  let desc_kind ← readByte.mapErr DecodeExportError.ReadDescriptorMarkerByte
  let idx ← decodeU32.mapErr DecodeExportError.DecodeIndex
  let desc ← (ExternIdx.from desc_kind idx).mapErr DecodeExportError.InvalidDescriptorMarkerByte
  pure ⟨name, desc⟩

/-- src/decode/sections/export.rs:16-20 `decode_export_section` -/
def decodeExportSection : Dec R DecodeExportSectionError (List Export) :=
  (decodeList parseExport).mapErr DecodeExportSectionError.DecodeList

/-! ### src/decode/sections/function.rs, start.rs, tag.rs, type.rs, memory.rs -/

/-- src/decode/sections/function.rs:13-17 `decode_function_section` -/
def decodeFunctionSection : Dec R DecodeFunctionSectionError (List TypeIdx) :=
  (decodeList TypeIdx.decode).mapErr DecodeFunctionSectionError.DecodeList

/-- src/decode/sections/start.rs:10-14 `decode_start_section` -/
def decodeStartSection : Dec R DecodeStartSectionError FuncIdx :=
  FuncIdx.decode.mapErr DecodeStartSectionError.mk

/-- src/decode/sections/tag.rs:13-17 `decode_tag_section` -/
def decodeTagSection : Dec R DecodeTagSectionError (List TagType) :=
  (decodeList TagType.decode).mapErr DecodeTagSectionError.DecodeList

/-- src/decode/sections/type.rs:13-17 `decode_type_section` -/
def decodeTypeSection : Dec R DecodeTypeSectionError (List RecType) :=
  (decodeList RecType.decode).mapErr DecodeTypeSectionError.DecodeList

/-- src/decode/sections/memory.rs:13-17 `decode_memory_section` -/
def decodeMemorySection : Dec R DecodeMemorySectionError (List MemType) :=
  (decodeList parseMemType).mapErr DecodeMemorySectionError.DecodeList

/-! ### src/decode/sections/global.rs, import.rs, table.rs -/

/-- src/decode/sections/global.rs:29-34 `parse_global` -/
def parseGlobal : Dec R DecodeGlobalError Global := do
  let type ← GlobalType.decode.mapErr DecodeGlobalError.DecodeGlobalType
  let init ← decodeExpr'.mapErr DecodeGlobalError.DecodeInit
  pure ⟨type, init⟩

/-- src/decode/sections/global.rs:14-18 `decode_global_section` -/
def decodeGlobalSection : Dec R DecodeGlobalSectionError (List Global) :=
  (decodeList parseGlobal).mapErr DecodeGlobalSectionError.DecodeList

/-- src/decode/sections/import.rs:36-46 `parse_import` -/
def parseImport : Dec R DecodeImportError Import := do
  let module_name ← decodeName.mapErr DecodeImportError.DecodeModuleName
  let item_name ← decodeName.mapErr DecodeImportError.DecodeItemName
  let extern_type ← ExternType.decode.mapErr DecodeImportError.DecodeExternType
  pure ⟨module_name, item_name, extern_type⟩

/-- src/decode/sections/import.rs:14-18 `decode_import_section` -/
def decodeImportSection : Dec R DecodeImportSectionError (List Import) :=
  (decodeList parseImport).mapErr DecodeImportSectionError.DecodeList

/-- src/decode/sections/table.rs:40-58 `decode_table` -/
def decodeTable : Dec R DecodeTableError Table := do
  let byte ← readByte.mapErr DecodeTableError.Io
  if byte = 0x40 then do
    let b ← readByte.mapErr DecodeTableError.Io
    if b ≠ 0x00 then Dec.err (.UnexpectedMarkerByte b)
    else do
      let tt ← TableType.decode.mapErr DecodeTableError.DecodeTableType
      let e ← decodeExpr'.mapErr DecodeTableError.DecodeExpression
      pure ⟨tt, e⟩
  else do
    let tt ← (Dec.withChain byte TableType.decode).mapErr DecodeTableError.DecodeTableType
    pure ⟨tt, [.RefNull tt.reftype.ht]⟩

/-- src/decode/sections/table.rs:16-20 `decode_table_section` -/
def decodeTableSection : Dec R DecodeTableSectionError (List Table) :=
  (decodeList decodeTable).mapErr DecodeTableSectionError.DecodeList

end Wadec
