import Verif.Source.Instructions

/-! Generated by tools/rs2lean.py from src/decode/helpers.rs, src/decode/sections/code.rs, src/decode/sections/custom.rs, src/decode/sections/data.rs, src/decode/sections/data_count.rs, src/decode/sections/element.rs, src/decode/sections/export.rs, src/decode/sections/function.rs, src/decode/sections/global.rs, src/decode/sections/import.rs, src/decode/sections/memory.rs, src/decode/sections/start.rs, src/decode/sections/table.rs, src/decode/sections/tag.rs, src/decode/sections/type.rs, src/decode/sections/mod.rs.
Do not edit.  The numbers in the comments are the source lines. -/

namespace Wadec.Source

variable {R : Type} [Read R]

/-- src/decode/helpers.rs:47-66 -/
def instruction_contains_data_index (ins : Instr) : Bool :=
  match ins with
  | Source.Instruction.MemoryInit _ _ | Source.Instruction.DataDrop _ | Source.Instruction.ArrayNewData _ _ | Source.Instruction.ArrayInitData _ _ => true
  | Source.Instruction.Block _ body | Source.Instruction.Loop _ body | Source.Instruction.TryTable _ _ body => List.any (List.map Source.instruction_contains_data_index body) id
  | Source.Instruction.If _ then_body else_body => (List.any (List.map Source.instruction_contains_data_index then_body) id) || (match else_body with | some body => List.any (List.map Source.instruction_contains_data_index body) id | none => false)
  | _ => false
termination_by sizeOf ins

/-- src/decode/helpers.rs:23-45 -/
def decode_expr : Dec R ParseExpressionError (Expr × Bool) := do
  let fuel ← budget
  let mut body := []  -- 26
  let mut encountered_data_index := false  -- 27
  for _ in Fuel.mk fuel do  -- 29
    match ← q (Source.Instruction.parse fuel) with  -- 30
    | ParseResult.Instruction ins =>
      if Source.instruction_contains_data_index ins then  -- 32
        encountered_data_index := true  -- 33
      body := body ++ [ins]  -- 35
    | ParseResult.End => break  -- 37
    | ParseResult.Else => Dec.err ParseExpressionError.UnexpectedElse  -- 40
  return (body, encountered_data_index)  -- 44

/-- src/decode/sections/code.rs:97-116 -/
def parse_code_local (expanded_locals : UInt64) (max_locals : UInt64) : Dec R DecodeCodeLocalsError (Local × UInt64) := do
  let mut expanded_locals := expanded_locals
  let count ← q (Dec.mapErr DecodeCodeLocalsError.DecodeLocalsCount Source.decode_u32)  -- 102
  expanded_locals ← add expanded_locals (From.from_ count : UInt64)  -- 104
  if expanded_locals > max_locals then  -- 105
    Dec.err (DecodeCodeLocalsError.LocalsCountOutOfBound (max_locals := max_locals) (actual_locals := expanded_locals))
  return (({ count := count, t := (← q Source.ValType.decode) } : Local), expanded_locals)  -- 112

/-- src/decode/sections/code.rs:50-77 -/
def parse_code : Dec R DecodeCodeError Code := do
  let size ← q (Dec.mapErr DecodeCodeError.DecodeFunctionSize Source.decode_u32)  -- 51
  onTake (From.from_ size) do  -- 53
    let mut expanded_locals : UInt64 := 0  -- 54
    let max_locals := (From.from_ (4294967295 : UInt32) : UInt64)  -- 55
    let (locals, expanded_locals1) ← q (Source.decode_list (FnMut.mk expanded_locals fun expanded_locals => Source.parse_code_local expanded_locals max_locals))
    expanded_locals := expanded_locals1
    let (expr, encountered_data_index) ← q Source.decode_expr  -- 61
    if (← limit) ≠ 0 then  -- 63
      Dec.err (DecodeCodeError.EntrySizeMismatch (declared_bytes := size) (leftover_bytes := (← limit)) (consumed_bytes := (← sub (From.from_ size : UInt64) (← limit))))
    return ({ size := size, locals := locals, expr := expr, encountered_data_index := encountered_data_index } : Code)

/-- src/decode/sections/code.rs:15-19 -/
def decode_code_section : Dec R DecodeCodeSectionError (List Code) := do
  return (← q (Source.decode_list (FnMut.of Source.parse_code))).1  -- 18

/-- src/decode/sections/custom.rs:15-23 -/
def decode_section_custom : Dec R DecodeCustomSectionError CustomSection := do
  let name ← q Source.decode_name  -- 18
  let mut contents := []  -- 19
  contents := contents ++ (← q readToEnd)  -- 20
  return ({ name := name, contents := contents } : CustomSection)  -- 22

/-- src/decode/sections/data.rs:42-74 -/
def parse_data : Dec R DecodeDataSegmentError Data := do
  let mut init_ : (List UInt8) := default  -- 43
  let mut mode : DataMode := default  -- 44
  (init_, mode) ← do  -- 46
      let x1 ← q (Dec.mapErr DecodeDataSegmentError.DecodeBitfield Source.decode_u32)
      if x1 = 0 then
        let (e_, _) ← q (Dec.mapErr DecodeDataSegmentError.DecodeOffsetExpr Source.decode_expr)  -- 48
        pure ((← q Source.decode_byte_vector), DataMode.Active (memory := MemIdx.mk 0) (offset := e_))
      else if x1 = 1 then
        pure ((← q Source.decode_byte_vector), DataMode.Passive)  -- 57
      else if x1 = 2 then
        let x ← q Source.MemIdx.decode  -- 59
        let (e_, _) ← q (Dec.mapErr DecodeDataSegmentError.DecodeOffsetExpr Source.decode_expr)  -- 60
        pure ((← q Source.decode_byte_vector), DataMode.Active (memory := x) (offset := e_))  -- 62
      else
        let n := x1
        Dec.err (DecodeDataSegmentError.InvalidBitfield n)  -- 70
  return ({ init := init_, mode := mode } : Data)  -- 73

/-- src/decode/sections/data.rs:18-22 -/
def decode_data_section : Dec R DecodeDataSectionError (List Data) := do
  return (← q (Source.decode_list (FnMut.of Source.parse_data))).1  -- 21

/-- src/decode/sections/data_count.rs:11-15 -/
def decode_datacount_section : Dec R DecodeDataCountSectionError UInt32 := do
  return (← q Source.decode_u32)  -- 14

/-- src/decode/sections/element.rs:175-187 -/
def parse_elemkind : Dec R DecodeElementKindError RefType := do
  let b ← q Source.read_byte  -- 178
  if b ≠ 0x00 then  -- 179
    Dec.err (DecodeElementKindError.InvalidElemKind b)  -- 180
  return ({ nullable := true, ht := HeapType.Ht AbsHeapType.Func } : RefType)  -- 183

/-- src/decode/sections/element.rs:61-160 -/
def parse_elem : Dec R DecodeElementError Elem := do
  let bitfield ← q (Dec.mapErr DecodeElementError.DecodeBitfield Source.decode_u32)  -- 62
  let funcidx_into_reffunc (idxs : (List FuncIdx)) : (List Expr) := List.map (fun idx => [Source.Instruction.RefFunc idx]) idxs
  let (type_, init_, mode) ← if bitfield = 0 then  -- 70
      let (e_, _) ← q (Dec.mapErr DecodeElementError.DecodeOffsetExpression Source.decode_expr)  -- 72
      let (y, _) ← q (Source.decode_list (FnMut.of Source.FuncIdx.decode))  -- 73
      pure (({ nullable := false, ht := HeapType.Ht AbsHeapType.Func } : RefType), funcidx_into_reffunc y, ElemMode.Active (table := TableIdx.mk 0) (offset := e_))
    else if bitfield = 1 then
      let rt ← q Source.parse_elemkind  -- 87
      let (y, _) ← q (Source.decode_list (FnMut.of Source.FuncIdx.decode))  -- 88
      pure (rt, funcidx_into_reffunc y, ElemMode.Passive)  -- 89
    else if bitfield = 2 then
      let x ← q Source.TableIdx.decode  -- 92
      let (e_, _) ← q (Dec.mapErr DecodeElementError.DecodeElementExpression Source.decode_expr)
      let rt ← q Source.parse_elemkind  -- 95
      let (y, _) ← q (Source.decode_list (FnMut.of Source.FuncIdx.decode))  -- 96
      pure (rt, funcidx_into_reffunc y, ElemMode.Active (table := x) (offset := e_))  -- 97
    else if bitfield = 3 then
      let rt ← q Source.parse_elemkind  -- 107
      let (y, _) ← q (Source.decode_list (FnMut.of Source.FuncIdx.decode))  -- 108
      pure (rt, funcidx_into_reffunc y, ElemMode.Declare)  -- 109
    else if bitfield = 4 then
      let (e_, _) ← q (Dec.mapErr DecodeElementError.DecodeOffsetExpression Source.decode_expr)  -- 112
      let (el, _) ← q (Dec.mapErr DecodeElementError.DecodeInit (Source.decode_list (FnMut.of ((fun (expr, _) => expr) <$> Source.decode_expr))))
      pure (({ nullable := true, ht := HeapType.Ht AbsHeapType.Func } : RefType), el, ElemMode.Active (table := TableIdx.mk 0) (offset := e_))
    else if bitfield = 5 then
      let rt ← q (Dec.mapErr DecodeElementError.DecodeReferenceType Source.RefType.decode)  -- 128
      let (el, _) ← q (Dec.mapErr DecodeElementError.DecodeInit (Source.decode_list (FnMut.of ((fun (expr, _) => expr) <$> Source.decode_expr))))
      pure (rt, el, ElemMode.Passive)  -- 131
    else if bitfield = 6 then
      let x ← q Source.TableIdx.decode  -- 134
      let (e_, _) ← q (Dec.mapErr DecodeElementError.DecodeOffsetExpression Source.decode_expr)  -- 135
      let rt ← q (Dec.mapErr DecodeElementError.DecodeReferenceType Source.RefType.decode)  -- 136
      let (el, _) ← q (Dec.mapErr DecodeElementError.DecodeInit (Source.decode_list (FnMut.of ((fun (expr, _) => expr) <$> Source.decode_expr))))
      pure (rt, el, ElemMode.Active (table := x) (offset := e_))  -- 140
    else if bitfield = 7 then
      let rt ← q (Dec.mapErr DecodeElementError.DecodeReferenceType Source.RefType.decode)  -- 150
      let (el, _) ← q (Dec.mapErr DecodeElementError.DecodeInit (Source.decode_list (FnMut.of ((fun (expr, _) => expr) <$> Source.decode_expr))))
      pure (rt, el, ElemMode.Declare)  -- 154
    else
      let n := bitfield
      Dec.err (DecodeElementError.InvalidBitfield n)  -- 156
  return ({ type := type_, init := init_, mode := mode } : Elem)  -- 159

/-- src/decode/sections/element.rs:21-25 -/
def decode_element_section : Dec R DecodeElementSectionError (List Elem) := do
  return (← q (Source.decode_list (FnMut.of Source.parse_elem))).1  -- 24

/-- src/decode/sections/export.rs:57-66 -/
def ExternIdx.from (b : UInt8) (idx : UInt32) : Dec R InvalidExportDescMarkerByte ExternIdx := do
  if b = 0x00 then  -- 58
    return ExternIdx.Func (FuncIdx.mk idx)  -- 59
  else if b = 0x01 then
    return ExternIdx.Table (TableIdx.mk idx)  -- 60
  else if b = 0x02 then
    return ExternIdx.Mem (MemIdx.mk idx)  -- 61
  else if b = 0x03 then
    return ExternIdx.Global (GlobalIdx.mk idx)  -- 62
  else if b = 0x04 then
    return ExternIdx.Tag (TagIdx.mk idx)  -- 63
  else
    Dec.err (InvalidExportDescMarkerByte.mk b)  -- 64

/-- src/decode/sections/export.rs:37-48 -/
def parse_export : Dec R DecodeExportError Export := do
  let name ← q Source.decode_name  -- 38
  let desc_kind ← q (Dec.mapErr DecodeExportError.ReadDescriptorMarkerByte Source.read_byte)
  let idx ← q Source.decode_u32  -- 41
  let desc ← q (Source.ExternIdx.from desc_kind idx)  -- 42
  return ({ name := name, externidx := desc } : Export)  -- 44

/-- src/decode/sections/export.rs:16-20 -/
def decode_export_section : Dec R DecodeExportSectionError (List Export) := do
  return (← q (Source.decode_list (FnMut.of Source.parse_export))).1  -- 19

/-- src/decode/sections/function.rs:13-17 -/
def decode_function_section : Dec R DecodeFunctionSectionError (List TypeIdx) := do
  return (← q (Source.decode_list (FnMut.of Source.TypeIdx.decode))).1  -- 16

/-- src/decode/sections/global.rs:29-34 -/
def parse_global : Dec R DecodeGlobalError Global := do
  let type_ ← q Source.GlobalType.decode  -- 30
  let (init_, _) ← q Source.decode_expr  -- 31
  return ({ type := type_, init := init_ } : Global)  -- 33

/-- src/decode/sections/global.rs:14-18 -/
def decode_global_section : Dec R DecodeGlobalSectionError (List Global) := do
  return (← q (Source.decode_list (FnMut.of Source.parse_global))).1  -- 17

/-- src/decode/sections/import.rs:36-46 -/
def parse_import : Dec R DecodeImportError Import := do
  let module_name ← q (Dec.mapErr DecodeImportError.DecodeModuleName Source.decode_name)  -- 37
  let item_name ← q (Dec.mapErr DecodeImportError.DecodeItemName Source.decode_name)  -- 38
  let extern_type ← q Source.ExternType.decode  -- 39
  return ({ module_name := module_name, item_name := item_name, extern_type := extern_type } : Import)

/-- src/decode/sections/import.rs:14-18 -/
def decode_import_section : Dec R DecodeImportSectionError (List Import) := do
  return (← q (Source.decode_list (FnMut.of Source.parse_import))).1  -- 17

/-- src/decode/sections/memory.rs:13-17 -/
def decode_memory_section : Dec R DecodeMemorySectionError (List MemType) := do
  return (← q (Source.decode_list (FnMut.of Source.parse_memtype))).1  -- 16

/-- src/decode/sections/start.rs:10-14 -/
def decode_start_section : Dec R DecodeStartSectionError FuncIdx := do
  return (← q Source.FuncIdx.decode)  -- 13

/-- src/decode/sections/table.rs:40-58 -/
def decode_table : Dec R DecodeTableError Table := do
  let byte ← q Source.read_byte  -- 41
  if byte = 0x40 then  -- 42
    let b ← q Source.read_byte  -- 43
    if b ≠ 0x00 then  -- 44
      Dec.err (DecodeTableError.UnexpectedMarkerByte b)  -- 45
    let tt ← q Source.TableType.decode  -- 47
    let (e_, _) ← q Source.decode_expr  -- 48
    return Table.mk tt e_  -- 49
  Dec.withChain byte do  -- 54
    let tt ← q Source.TableType.decode  -- 55
    let e_ := [Source.Instruction.RefNull tt.reftype.ht]  -- 56
    return Table.mk tt e_  -- 57

/-- src/decode/sections/table.rs:16-20 -/
def decode_table_section : Dec R DecodeTableSectionError (List Table) := do
  return (← q (Source.decode_list (FnMut.of Source.decode_table))).1  -- 19

/-- src/decode/sections/tag.rs:13-17 -/
def decode_tag_section : Dec R DecodeTagSectionError (List TagType) := do
  return (← q (Source.decode_list (FnMut.of Source.TagType.decode))).1  -- 16

/-- src/decode/sections/type.rs:13-17 -/
def decode_type_section : Dec R DecodeTypeSectionError (List RecType) := do
  return (← q (Source.decode_list (FnMut.of Source.RecType.decode))).1  -- 16

end Wadec.Source
