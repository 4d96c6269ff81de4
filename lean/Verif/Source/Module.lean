import Verif.Source.Sections

/-! Generated by tools/rs2lean.py from src/decode/module.rs.
Do not edit.  The numbers in the comments are the source lines. -/

namespace Wadec.Source

variable {R : Type} [Read R]

/-- src/decode/module.rs:11 -/
def MAGIC_NUMBER : (List UInt8) :=
  [0x00, 0x61, 0x73, 0x6D]

/-- src/decode/module.rs:12 -/
def VERSION : (List UInt8) :=
  [0x01, 0x00, 0x00, 0x00]

/-- src/decode/module.rs:14 -/
def EXPECTED_PREAMBLE : (List UInt8) :=
  [constIndex MAGIC_NUMBER 0, constIndex MAGIC_NUMBER 1, constIndex MAGIC_NUMBER 2, constIndex MAGIC_NUMBER 3, constIndex VERSION 0, constIndex VERSION 1, constIndex VERSION 2, constIndex VERSION 3]

/-- src/decode/module.rs:26-50 -/
def Module.validate_section_kind_expected (self : Module) (current : SectionHeader) : Dec R DecodeModuleError Unit := do
  let previous := self.parsed_section_kinds.getLast?  -- 30
  let current := current.kind  -- 31
  if (previous.isNone = true) ∨ (current = SectionKind.Custom) then  -- 35
    return ()  -- 36
  let previous ← unwrap_some previous  -- 39
  if current < previous then  -- 41
    Dec.err (DecodeModuleError.SectionOutOfOrder (current := current) (previous := previous))  -- 42
  if current = previous then  -- 45
    Dec.err (DecodeModuleError.DuplicateSection current)  -- 46
  return ()  -- 49

/-- src/decode/module.rs:54-73 -/
def Module.default : Module :=
  ({ version := VERSION, parsed_section_kinds := [], section_headers := [], data_count := none, custom_sections := [], types := [], funcs := [], tables := [], mems := [], globals := [], elems := [], datas := [], start := none, imports := [], exports := [], tags := [] } : Module)

/-- src/decode/module.rs:91 -/
def SectionId_MARKERS : List (UInt8 × SectionKind) :=
  [((0 : UInt8), SectionKind.Custom),
   ((1 : UInt8), SectionKind.Type),
   ((2 : UInt8), SectionKind.Import),
   ((3 : UInt8), SectionKind.Function),
   ((4 : UInt8), SectionKind.Table),
   ((5 : UInt8), SectionKind.Memory),
   ((6 : UInt8), SectionKind.Global),
   ((7 : UInt8), SectionKind.Export),
   ((8 : UInt8), SectionKind.Start),
   ((9 : UInt8), SectionKind.Element),
   ((10 : UInt8), SectionKind.Code),
   ((11 : UInt8), SectionKind.Data),
   ((12 : UInt8), SectionKind.DataCount),
   ((13 : UInt8), SectionKind.Tag)]

/-- src/decode/module.rs:108-113 -/
instance : FromMarkerByte SectionKind InvalidSectionIdError := ⟨SectionId_MARKERS⟩

/-- src/decode/module.rs:385-398 -/
def decode_section_header : Dec R DecodeSectionHeaderError (Option SectionHeader) := do
  let id ← match ← attempt Source.read_byte with  -- 388
    | .ok id => pure id  -- 389
    | .error e_ =>
      if e_ = IoError.unexpectedEof then
        return none  -- 390
      else
        Dec.err (From.from_ e_)  -- 391
  let kind ← q (Source.from_marker SectionKind id)  -- 394
  let size ← q Source.decode_u32  -- 395
  return some ({ kind := kind, size := size } : SectionHeader)  -- 397

/-- src/decode/module.rs:362-371 -/
def parse_preamble : Dec R ParsePreambleError Unit := do
  let mut preamble := List.replicate 8 (0 : UInt8)  -- 363
  preamble ← q (readExact preamble.length)  -- 364
  if preamble ≠ EXPECTED_PREAMBLE then  -- 366
    Dec.err (ParsePreambleError.Unexpected preamble)  -- 367
  return ()  -- 370

/-- src/decode/module.rs:207-351 -/
def decode_module : Dec R DecodeModuleError Module := do
  let fuel ← budget
  q Source.parse_preamble  -- 208
  let mut module_ := Source.Module.default  -- 210
  let mut encountered_code_section := false  -- 216
  let mut encountered_data_idx_in_code_section := false  -- 221
  for _ in Fuel.mk fuel do  -- 223
    match ← q Source.decode_section_header with
    | some section_header =>
      (module_, encountered_code_section, encountered_data_idx_in_code_section) ← onTake (From.from_ section_header.size) do  -- 224
        let mut module_ := module_
        let mut encountered_code_section := encountered_code_section
        let mut encountered_data_idx_in_code_section := encountered_data_idx_in_code_section
        q (Source.Module.validate_section_kind_expected module_ section_header)  -- 226
        let section_kind := section_header.kind  -- 228
        match section_kind with  -- 229
        | SectionKind.Custom => module_ := { module_ with custom_sections := module_.custom_sections ++ [(← q Source.decode_section_custom)] }
        | SectionKind.Type => module_ := { module_ with types := (← q Source.decode_type_section) }  -- 235
        | SectionKind.Import => module_ := { module_ with imports := (← q Source.decode_import_section) }  -- 236
        | SectionKind.Function =>
          let xs1 ← q Source.decode_function_section  -- 238
          for type_idx in xs1 do
            module_ := { module_ with funcs := module_.funcs ++ [({ type := type_idx, locals := [], body := [] } : Func)] }
        | SectionKind.Table => module_ := { module_ with tables := (← q Source.decode_table_section) }  -- 247
        | SectionKind.Memory => module_ := { module_ with mems := (← q Source.decode_memory_section) }  -- 248
        | SectionKind.Global => module_ := { module_ with globals := (← q Source.decode_global_section) }  -- 249
        | SectionKind.Export => module_ := { module_ with exports := (← q Source.decode_export_section) }  -- 250
        | SectionKind.Start => module_ := { module_ with start := some (← q Source.decode_start_section) }  -- 251
        | SectionKind.Element => module_ := { module_ with elems := (← q Source.decode_element_section) }  -- 252
        | SectionKind.DataCount => module_ := { module_ with data_count := some (← q Source.decode_datacount_section) }  -- 254
        | SectionKind.Code =>
          encountered_code_section := true  -- 257
          let codes ← q Source.decode_code_section  -- 259
          if codes.length ≠ module_.funcs.length then  -- 263
            Dec.err (DecodeModuleError.CodeFuncEntriesLenMismatch (codes_len := codes.length) (funcs_len := module_.funcs.length))
          for (i, code) in enumerate codes do  -- 272
            for local_ in code.locals do  -- 273
              for _ in range 0 local_.count do  -- 274
                module_ := { module_ with funcs := (← set_index module_.funcs i ({ (← index module_.funcs i) with locals := (← index module_.funcs i).locals ++ [local_.t] })) }
            if code.encountered_data_index = true then  -- 279
              encountered_data_idx_in_code_section := true  -- 280
            module_ := { module_ with funcs := (← set_index module_.funcs i ({ (← index module_.funcs i) with body := code.expr })) }
        | SectionKind.Data =>
          let datas ← q Source.decode_data_section  -- 287
          if let some data_count := module_.data_count then  -- 291
            if datas.length ≠ (← unwrap_ok (tryFrom (β := Nat) data_count)) then  -- 292
              Dec.err (DecodeModuleError.DataCountMismatch (datas_len := datas.length) (data_count := data_count))
          module_ := { module_ with datas := datas }  -- 299
        | SectionKind.Tag => module_ := { module_ with tags := (← q Source.decode_tag_section) }  -- 301
        if (← limit) ≠ 0 then  -- 304
          Dec.err (DecodeModuleError.SectionSizeMismatch (section_kind := section_kind) (declared := section_header.size) (got := (← sub (From.from_ section_header.size : UInt64) (← limit))))
        module_ := { module_ with section_headers := module_.section_headers ++ [section_header] }
        if section_kind ≠ SectionKind.Custom then  -- 313
          module_ := { module_ with parsed_section_kinds := module_.parsed_section_kinds ++ [section_kind] }
        return (module_, encountered_code_section, encountered_data_idx_in_code_section)
    | _ => break
  if (¬ (module_.funcs.isEmpty = true)) ∧ (¬ (encountered_code_section = true)) then  -- 323
    Dec.err (DecodeModuleError.CodeFuncEntriesLenMismatch (funcs_len := module_.funcs.length) (codes_len := 0))
  if let some n := module_.data_count then  -- 335
    if (← q (Dec.mapErr (fun _ => DecodeModuleError.DecodeDataCount) (tryFrom (β := Nat) n))) ≠ module_.datas.length then  -- 336
      Dec.err (DecodeModuleError.DataCountDatasLenMismatch (datas_len := module_.datas.length) (data_count := n))
  if (encountered_data_idx_in_code_section = true) ∧ (module_.data_count.isNone = true) then
    Dec.err DecodeModuleError.DataIndexWithoutDataCount  -- 347
  return module_  -- 350

end Wadec.Source
