import Verif.Check.Base

/-! Generated by tools/gen_tests.py from /repo/tests/tests.rs: the project's own tests, run on the model by the
kernel.  These are not claims; they are checks that the model is a model of this code. -/

namespace Wadec.Check
open Wadec

set_option maxRecDepth 100000

/-- tests/tests.rs:62 `it_parses_preamble` -/
example : onErr []
    (fun e =>
    (match e with
      | (.ParsePreamble (.Io io_err)) => same io_err IoError.unexpectedEof
      | _ => false)) = true := by decide +kernel

/-- tests/tests.rs:62 `it_parses_preamble` -/
example : onErr [211, 173, 190, 239]
    (fun e2 =>
    (match e2 with
      | (.ParsePreamble (.Io io_err)) => same io_err IoError.unexpectedEof
      | _ => false)) = true := by decide +kernel

/-- tests/tests.rs:62 `it_parses_preamble` -/
example : onErr [211, 173, 190, 239, 0, 0, 0, 0]
    (fun e3 =>
    (match e3 with
      | (.ParsePreamble (.Unexpected preamble)) => same preamble [211, 173, 190, 239, 0, 0, 0, 0]
      | _ => false)) = true := by decide +kernel

/-- tests/tests.rs:62 `it_parses_preamble` -/
example : onOk [0, 97, 115, 109, 1, 0, 0, 0]
    (fun m4 =>
    same m4 moduleDefault) = true := by decide +kernel

/-- tests/tests.rs:96 `it_accepts_empty_module`, input ./tests/fixtures/empty.wasm -/
example : onOk [0, 97, 115, 109, 1, 0, 0, 0]
    (fun m =>
    same m moduleDefault) = true := by decide +kernel

/-- tests/tests.rs:104 `it_accepts_add_sample`, input ./tests/fixtures/add.wasm -/
example : onOk [0, 97, 115, 109, 1, 0, 0, 0, 1, 7, 1, 96, 2, 127, 127, 1, 127, 3, 2, 1, 0, 7, 7, 1, 3, 97, 100,
        100, 0, 0, 10, 9, 1, 7, 0, 32, 0, 32, 1, 106, 11]
    (fun m =>
    same m { moduleDefault with
    parsed_section_kinds := [SectionKind.«Type», SectionKind.Function, SectionKind.Export,
        SectionKind.Code],
    section_headers := [(SectionHeader.mk (kind := SectionKind.«Type») (size := 7)),
        (SectionHeader.mk (kind := SectionKind.Function) (size := 2)), (SectionHeader.mk (kind :=
        SectionKind.Export) (size := 7)), (SectionHeader.mk (kind := SectionKind.Code) (size :=
        9))],
    types := (rectypes [(CompType.Func (parameters := [(ValType.Num NumType.Int32), (ValType.Num
        NumType.Int32)]) (results := [(ValType.Num NumType.Int32)]))]),
    funcs := [(Func.mk («type» := (TypeIdx.mk 0)) (locals := []) (body := [(Instr.LocalGet
        (LocalIdx.mk 0)), (Instr.LocalGet (LocalIdx.mk 1)), (Instr.plain .I32Add)]))],
    exports := [(Export.mk (name := (Str.mk [97, 100, 100])) (externidx := (ExternIdx.Func
        (FuncIdx.mk 0))))] }) = true := by decide +kernel

/-- tests/tests.rs:168 `it_decodes_type_section_recgroup`, input tests/fixtures/type_section_recgroup.wasm -/
example : onOk [0, 97, 115, 109, 1, 0, 0, 0, 1, 21, 2, 78, 2, 79, 0, 95, 2, 127, 0, 120, 1, 80, 1, 0, 94, 119, 0,
        96, 1, 127, 0]
    (fun m =>
    same m.types [(RecType.mk [(SubType.mk (is_final := true) (supertypes := []) (comptype :=
        (CompType.Struct [(FieldType.mk Mut.Const (StorageType.ValType (ValType.Num
        NumType.Int32))), (FieldType.mk Mut.Var (StorageType.PackType PackType.I8))]))),
        (SubType.mk (is_final := false) (supertypes := [(TypeIdx.mk 0)]) (comptype :=
        (CompType.Array (FieldType.mk Mut.Const (StorageType.PackType PackType.I16)))))]),
        (RecType.mk [(SubType.mk (is_final := true) (supertypes := []) (comptype := (CompType.Func
        (parameters := [(ValType.Num NumType.Int32)]) (results := []))))])]) = true := by decide +kernel

/-- tests/tests.rs:208 `it_decodes_tag_section`, input tests/fixtures/tag_section.wasm -/
example : onOk [0, 97, 115, 109, 1, 0, 0, 0, 1, 4, 1, 96, 0, 0, 13, 3, 1, 0, 0]
    (fun m =>
    same m { moduleDefault with
    parsed_section_kinds := [SectionKind.«Type», SectionKind.Tag],
    section_headers := [(SectionHeader.mk (kind := SectionKind.«Type») (size := 4)),
        (SectionHeader.mk (kind := SectionKind.Tag) (size := 3))],
    types := (rectypes [(CompType.Func (parameters := []) (results := []))]),
    tags := [(TagType.mk (TypeIdx.mk 0))] }) = true := by decide +kernel

/-- tests/tests.rs:244 `it_decodes_tag_section_multiple_entries`, input tests/fixtures/tag_section_multi.wasm -/
example : onOk [0, 97, 115, 109, 1, 0, 0, 0, 1, 9, 2, 96, 0, 0, 96, 2, 127, 126, 0, 13, 5, 2, 0, 0, 0, 1]
    (fun m =>
    same m { moduleDefault with
    parsed_section_kinds := [SectionKind.«Type», SectionKind.Tag],
    section_headers := [(SectionHeader.mk (kind := SectionKind.«Type») (size := 9)),
        (SectionHeader.mk (kind := SectionKind.Tag) (size := 5))],
    types := (rectypes [(CompType.Func (parameters := []) (results := [])), (CompType.Func
        (parameters := [(ValType.Num NumType.Int32), (ValType.Num NumType.Int64)]) (results :=
        []))]),
    tags := [(TagType.mk (TypeIdx.mk 0)), (TagType.mk (TypeIdx.mk 1))] }) = true := by decide +kernel

/-- tests/tests.rs:286 `it_decodes_tag_export`, input tests/fixtures/tag_export.wasm -/
example : onOk [0, 97, 115, 109, 1, 0, 0, 0, 1, 4, 1, 96, 0, 0, 13, 3, 1, 0, 0, 7, 8, 1, 4, 116, 97, 103, 48, 4,
        0]
    (fun m =>
    same m.parsed_section_kinds [SectionKind.«Type», SectionKind.Tag, SectionKind.Export] && same
        m.types (rectypes [(CompType.Func (parameters := []) (results := []))]) && same m.tags
        [(TagType.mk (TypeIdx.mk 0))] && same m.exports [(Export.mk (name := (Str.mk [116, 97,
        103, 48])) (externidx := (ExternIdx.Tag (TagIdx.mk 0))))]) = true := by decide +kernel

/-- tests/tests.rs:312 `it_accepts_two_funcs_exporting_second`, input tests/fixtures/two_funcs_add2.wasm -/
example : onOk [0, 97, 115, 109, 1, 0, 0, 0, 1, 7, 1, 96, 2, 127, 127, 1, 127, 3, 3, 2, 0, 0, 7, 8, 1, 4, 97,
        100, 100, 50, 0, 1, 10, 17, 2, 7, 0, 32, 0, 32, 1, 106, 11, 7, 0, 32, 0, 32, 1, 106, 11]
    (fun m =>
    same m { moduleDefault with
    parsed_section_kinds := [SectionKind.«Type», SectionKind.Function, SectionKind.Export,
        SectionKind.Code],
    section_headers := [(SectionHeader.mk (kind := SectionKind.«Type») (size := 7)),
        (SectionHeader.mk (kind := SectionKind.Function) (size := 3)), (SectionHeader.mk (kind :=
        SectionKind.Export) (size := 8)), (SectionHeader.mk (kind := SectionKind.Code) (size :=
        17))],
    types := (rectypes [(CompType.Func (parameters := [(ValType.Num NumType.Int32), (ValType.Num
        NumType.Int32)]) (results := [(ValType.Num NumType.Int32)]))]),
    funcs := [(Func.mk («type» := (TypeIdx.mk 0)) (locals := []) (body := [(Instr.LocalGet
        (LocalIdx.mk 0)), (Instr.LocalGet (LocalIdx.mk 1)), (Instr.plain .I32Add)])), (Func.mk
        («type» := (TypeIdx.mk 0)) (locals := []) (body := [(Instr.LocalGet (LocalIdx.mk 0)),
        (Instr.LocalGet (LocalIdx.mk 1)), (Instr.plain .I32Add)]))],
    exports := [(Export.mk (name := (Str.mk [97, 100, 100, 50])) (externidx := (ExternIdx.Func
        (FuncIdx.mk 1))))] }) = true := by decide +kernel

/-- tests/tests.rs:385 `it_accepts_imports_of_tables_memories_and_globals`, input tests/fixtures/imports_table_mem_global.wasm -/
example : onOk [0, 97, 115, 109, 1, 0, 0, 0, 2, 63, 4, 3, 101, 110, 118, 5, 116, 97, 98, 108, 101, 1, 112, 0, 1,
        3, 101, 110, 118, 6, 109, 101, 109, 111, 114, 121, 2, 0, 1, 3, 101, 110, 118, 8, 103, 108,
        111, 98, 97, 108, 95, 105, 3, 127, 0, 3, 101, 110, 118, 10, 103, 108, 111, 98, 97, 108,
        95, 109, 117, 116, 3, 126, 1]
    (fun m =>
    same m { moduleDefault with
    parsed_section_kinds := [SectionKind.Import],
    section_headers := [(SectionHeader.mk (kind := SectionKind.Import) (size := 63))],
    imports := [(Import.mk (module_name := (Str.mk [101, 110, 118])) (item_name := (Str.mk [116,
        97, 98, 108, 101])) (extern_type := (ExternType.Table (TableType.mk (limits := (Limits.mk
        (address_type := AddrType.I32) (min := 1) (max := none))) (reftype := (RefType.mk true
        (.Ht .Func))))))), (Import.mk (module_name := (Str.mk [101, 110, 118])) (item_name :=
        (Str.mk [109, 101, 109, 111, 114, 121])) (extern_type := (ExternType.Mem (MemType.mk
        (limits := (Limits.mk (address_type := AddrType.I32) (min := 1) (max := none))))))),
        (Import.mk (module_name := (Str.mk [101, 110, 118])) (item_name := (Str.mk [103, 108, 111,
        98, 97, 108, 95, 105])) (extern_type := (ExternType.Global (GlobalType.mk Mut.Const
        (ValType.Num NumType.Int32))))), (Import.mk (module_name := (Str.mk [101, 110, 118]))
        (item_name := (Str.mk [103, 108, 111, 98, 97, 108, 95, 109, 117, 116])) (extern_type :=
        (ExternType.Global (GlobalType.mk Mut.Var (ValType.Num NumType.Int64)))))] }) = true := by decide +kernel

/-- tests/tests.rs:442 `it_decodes_imports_with_tag_and_func`, input tests/fixtures/imports_with_tag_func.wasm -/
example : onOk [0, 97, 115, 109, 1, 0, 0, 0, 1, 10, 2, 96, 1, 127, 1, 127, 96, 1, 127, 0, 2, 25, 2, 3, 101, 110,
        118, 5, 102, 117, 110, 99, 48, 0, 0, 3, 101, 110, 118, 4, 116, 97, 103, 48, 4, 0, 1]
    (fun m =>
    same m.types (rectypes [(CompType.Func (parameters := [(ValType.Num NumType.Int32)]) (results :=
        [(ValType.Num NumType.Int32)])), (CompType.Func (parameters := [(ValType.Num
        NumType.Int32)]) (results := []))]) && same m.imports [(Import.mk (module_name := (Str.mk
        [101, 110, 118])) (item_name := (Str.mk [102, 117, 110, 99, 48])) (extern_type :=
        (ExternType.Func (TypeIdx.mk 0)))), (Import.mk (module_name := (Str.mk [101, 110, 118]))
        (item_name := (Str.mk [116, 97, 103, 48])) (extern_type := (ExternType.Tag (TagType.mk
        (TypeIdx.mk 1)))))]) = true := by decide +kernel

/-- tests/tests.rs:475 `it_accepts_module_without_exports`, input tests/fixtures/no_export.wasm -/
example : onOk [0, 97, 115, 109, 1, 0, 0, 0, 1, 7, 1, 96, 2, 127, 127, 1, 127, 3, 2, 1, 0, 10, 9, 1, 7, 0, 32, 0,
        32, 1, 106, 11]
    (fun m =>
    same m { moduleDefault with
    parsed_section_kinds := [SectionKind.«Type», SectionKind.Function, SectionKind.Code],
    section_headers := [(SectionHeader.mk (kind := SectionKind.«Type») (size := 7)),
        (SectionHeader.mk (kind := SectionKind.Function) (size := 2)), (SectionHeader.mk (kind :=
        SectionKind.Code) (size := 9))],
    types := (rectypes [(CompType.Func (parameters := [(ValType.Num NumType.Int32), (ValType.Num
        NumType.Int32)]) (results := [(ValType.Num NumType.Int32)]))]),
    funcs := [(Func.mk («type» := (TypeIdx.mk 0)) (locals := []) (body := [(Instr.LocalGet
        (LocalIdx.mk 0)), (Instr.LocalGet (LocalIdx.mk 1)), (Instr.plain .I32Add)]))] }) = true := by decide +kernel

/-- tests/tests.rs:524 `it_decodes_start_section`, input tests/fixtures/start_section.wasm -/
example : onOk [0, 97, 115, 109, 1, 0, 0, 0, 1, 4, 1, 96, 0, 0, 3, 2, 1, 0, 8, 1, 0, 10, 4, 1, 2, 0, 11]
    (fun m =>
    same m { moduleDefault with
    parsed_section_kinds := [SectionKind.«Type», SectionKind.Function, SectionKind.Start,
        SectionKind.Code],
    section_headers := [(SectionHeader.mk (kind := SectionKind.«Type») (size := 4)),
        (SectionHeader.mk (kind := SectionKind.Function) (size := 2)), (SectionHeader.mk (kind :=
        SectionKind.Start) (size := 1)), (SectionHeader.mk (kind := SectionKind.Code) (size :=
        4))],
    types := (rectypes [(CompType.Func (parameters := []) (results := []))]),
    funcs := [(Func.mk («type» := (TypeIdx.mk 0)) (locals := []) (body := []))],
    start := (some (FuncIdx.mk 0)) }) = true := by decide +kernel

/-- tests/tests.rs:577 `it_decodes_control_instructions`, input tests/fixtures/control_instructions.wasm -/
example : onOk [0, 97, 115, 109, 1, 0, 0, 0, 1, 9, 2, 96, 0, 0, 96, 0, 2, 127, 127, 2, 25, 2, 3, 101, 110, 118,
        4, 116, 97, 103, 48, 4, 0, 0, 3, 101, 110, 118, 4, 116, 97, 103, 49, 4, 0, 0, 3, 3, 2, 0,
        0, 4, 4, 1, 112, 0, 1, 7, 11, 1, 7, 99, 111, 110, 116, 114, 111, 108, 0, 1, 10, 82, 2, 2,
        0, 11, 77, 0, 1, 2, 64, 0, 11, 2, 64, 3, 64, 12, 1, 11, 11, 2, 64, 65, 0, 13, 0, 11, 2,
        64, 65, 0, 14, 1, 0, 0, 11, 2, 64, 65, 0, 4, 64, 0, 5, 1, 11, 11, 2, 1, 65, 42, 65, 7, 11,
        26, 26, 16, 0, 65, 0, 17, 0, 0, 8, 1, 10, 31, 64, 4, 0, 1, 1, 1, 1, 1, 2, 1, 3, 1, 0, 11,
        15, 11]
    (fun m =>
    same m { moduleDefault with
    parsed_section_kinds := [SectionKind.«Type», SectionKind.Import, SectionKind.Function,
        SectionKind.Table, SectionKind.Export, SectionKind.Code],
    section_headers := [(SectionHeader.mk (kind := SectionKind.«Type») (size := 9)),
        (SectionHeader.mk (kind := SectionKind.Import) (size := 25)), (SectionHeader.mk (kind :=
        SectionKind.Function) (size := 3)), (SectionHeader.mk (kind := SectionKind.Table) (size :=
        4)), (SectionHeader.mk (kind := SectionKind.Export) (size := 11)), (SectionHeader.mk (kind
        := SectionKind.Code) (size := 82))],
    types := (rectypes [(CompType.Func (parameters := []) (results := [])), (CompType.Func
        (parameters := []) (results := [(ValType.Num NumType.Int32), (ValType.Num
        NumType.Int32)]))]),
    imports := [(Import.mk (module_name := (Str.mk [101, 110, 118])) (item_name := (Str.mk [116,
        97, 103, 48])) (extern_type := (ExternType.Tag (TagType.mk (TypeIdx.mk 0))))), (Import.mk
        (module_name := (Str.mk [101, 110, 118])) (item_name := (Str.mk [116, 97, 103, 49]))
        (extern_type := (ExternType.Tag (TagType.mk (TypeIdx.mk 0)))))],
    funcs := [(Func.mk («type» := (TypeIdx.mk 0)) (locals := []) (body := [])), (Func.mk («type»
        := (TypeIdx.mk 0)) (locals := []) (body := [(Instr.plain .Nop), (Instr.Block
        BlockType.Empty [(Instr.plain .Unreachable)]), (Instr.Block BlockType.Empty [(Instr.Loop
        BlockType.Empty [(Instr.Br (LabelIdx.mk 1))])]), (Instr.Block BlockType.Empty
        [(Instr.I32Const 0), (Instr.BrIf (LabelIdx.mk 0))]), (Instr.Block BlockType.Empty
        [(Instr.I32Const 0), (Instr.BrTable [(LabelIdx.mk 0)] (LabelIdx.mk 0))]), (Instr.Block
        BlockType.Empty [(Instr.I32Const 0), (Instr.If BlockType.Empty [(Instr.plain
        .Unreachable)] (some [(Instr.plain .Nop)]))]), (Instr.Block (BlockType.I 1)
        [(Instr.I32Const 42), (Instr.I32Const 7)]), (Instr.plain .Drop), (Instr.plain .Drop),
        (Instr.Call (FuncIdx.mk 0)), (Instr.I32Const 0), (Instr.CallIndirect (TableIdx.mk 0)
        (TypeIdx.mk 0)), (Instr.Throw (TagIdx.mk 1)), (Instr.plain .ThrowRef), (Instr.TryTable
        BlockType.Empty [(Catch.Catch (TagIdx.mk 1) (LabelIdx.mk 1)), (Catch.CatchRef (TagIdx.mk
        1) (LabelIdx.mk 1)), (Catch.CatchAll (LabelIdx.mk 1)), (Catch.CatchAllRef (LabelIdx.mk
        1))] [(Instr.plain .Unreachable)]), (Instr.plain .Return)]))],
    tables := [(Table.mk (TableType.mk (limits := (Limits.mk (address_type := AddrType.I32) (min
        := 1) (max := none))) (reftype := (RefType.mk true (.Ht .Func)))) [(Instr.RefNull
        (HeapType.Ht .Func))])],
    exports := [(Export.mk (name := (Str.mk [99, 111, 110, 116, 114, 111, 108])) (externidx :=
        (ExternIdx.Func (FuncIdx.mk 1))))] }) = true := by decide +kernel

/-- tests/tests.rs:740 `it_decodes_return_call_instructions`, input tests/fixtures/return_call_instructions.wasm -/
example : onOk [0, 97, 115, 109, 1, 0, 0, 0, 1, 7, 2, 96, 0, 0, 96, 0, 0, 3, 4, 3, 0, 0, 0, 4, 4, 1, 112, 0, 1,
        10, 18, 3, 3, 0, 1, 11, 4, 0, 18, 0, 11, 7, 0, 65, 0, 19, 1, 0, 11]
    (fun m =>
    same m.types (rectypes [(CompType.Func (parameters := []) (results := [])), (CompType.Func
        (parameters := []) (results := []))]) && same m.tables [(Table.mk (TableType.mk (limits :=
        (Limits.mk (address_type := AddrType.I32) (min := 1) (max := none))) (reftype :=
        (RefType.mk true (.Ht .Func)))) [(Instr.RefNull (HeapType.Ht .Func))])] && same m.funcs
        [(Func.mk («type» := (TypeIdx.mk 0)) (locals := []) (body := [(Instr.plain .Nop)])),
        (Func.mk («type» := (TypeIdx.mk 0)) (locals := []) (body := [(Instr.ReturnCall (FuncIdx.mk
        0))])), (Func.mk («type» := (TypeIdx.mk 0)) (locals := []) (body := [(Instr.I32Const 0),
        (Instr.ReturnCallIndirect (TableIdx.mk 0) (TypeIdx.mk 1))]))]) = true := by decide +kernel

/-- tests/tests.rs:793 `it_decodes_element_section_all_alts`, input tests/fixtures/element_section_all_alts.wasm -/
example : onOk [0, 97, 115, 109, 1, 0, 0, 0, 1, 4, 1, 96, 0, 0, 3, 7, 6, 0, 0, 0, 0, 0, 0, 4, 7, 2, 112, 0, 12,
        112, 0, 12, 9, 67, 8, 0, 65, 0, 11, 2, 0, 1, 1, 0, 2, 2, 3, 2, 1, 65, 1, 11, 0, 1, 4, 3,
        0, 1, 5, 4, 65, 6, 11, 2, 210, 0, 11, 208, 112, 11, 5, 112, 2, 210, 1, 11, 208, 112, 11,
        6, 1, 65, 3, 11, 112, 2, 210, 2, 11, 208, 112, 11, 7, 112, 2, 208, 112, 11, 210, 3, 11,
        10, 19, 6, 2, 0, 11, 2, 0, 11, 2, 0, 11, 2, 0, 11, 2, 0, 11, 2, 0, 11]
    (fun m =>
    same m { moduleDefault with
    parsed_section_kinds := [SectionKind.«Type», SectionKind.Function, SectionKind.Table,
        SectionKind.Element, SectionKind.Code],
    section_headers := [(SectionHeader.mk (kind := SectionKind.«Type») (size := 4)),
        (SectionHeader.mk (kind := SectionKind.Function) (size := 7)), (SectionHeader.mk (kind :=
        SectionKind.Table) (size := 7)), (SectionHeader.mk (kind := SectionKind.Element) (size :=
        67)), (SectionHeader.mk (kind := SectionKind.Code) (size := 19))],
    types := (rectypes [(CompType.Func (parameters := []) (results := []))]),
    funcs := [(Func.mk («type» := (TypeIdx.mk 0)) (locals := []) (body := [])), (Func.mk («type»
        := (TypeIdx.mk 0)) (locals := []) (body := [])), (Func.mk («type» := (TypeIdx.mk 0))
        (locals := []) (body := [])), (Func.mk («type» := (TypeIdx.mk 0)) (locals := []) (body :=
        [])), (Func.mk («type» := (TypeIdx.mk 0)) (locals := []) (body := [])), (Func.mk («type»
        := (TypeIdx.mk 0)) (locals := []) (body := []))],
    tables := [(Table.mk (TableType.mk (limits := (Limits.mk (address_type := AddrType.I32) (min
        := 12) (max := none))) (reftype := (RefType.mk true (.Ht .Func)))) [(Instr.RefNull
        (HeapType.Ht .Func))]), (Table.mk (TableType.mk (limits := (Limits.mk (address_type :=
        AddrType.I32) (min := 12) (max := none))) (reftype := (RefType.mk true (.Ht .Func))))
        [(Instr.RefNull (HeapType.Ht .Func))])],
    elems := [(Elem.mk («type» := (RefType.mk false (.Ht .Func))) (init := [[(Instr.RefFunc
        (FuncIdx.mk 0))], [(Instr.RefFunc (FuncIdx.mk 1))]]) (mode := (ElemMode.Active (table :=
        (TableIdx.mk 0)) (offset := [(Instr.I32Const 0)])))), (Elem.mk («type» := (RefType.mk true
        (.Ht .Func))) (init := [[(Instr.RefFunc (FuncIdx.mk 2))], [(Instr.RefFunc (FuncIdx.mk
        3))]]) (mode := ElemMode.Passive)), (Elem.mk («type» := (RefType.mk true (.Ht .Func)))
        (init := [[(Instr.RefFunc (FuncIdx.mk 4))]]) (mode := (ElemMode.Active (table :=
        (TableIdx.mk 1)) (offset := [(Instr.I32Const 1)])))), (Elem.mk («type» := (RefType.mk true
        (.Ht .Func))) (init := [[(Instr.RefFunc (FuncIdx.mk 5))]]) (mode := ElemMode.Declare)),
        (Elem.mk («type» := (RefType.mk true (.Ht .Func))) (init := [[(Instr.RefFunc (FuncIdx.mk
        0))], [(Instr.RefNull (HeapType.Ht .Func))]]) (mode := (ElemMode.Active (table :=
        (TableIdx.mk 0)) (offset := [(Instr.I32Const 6)])))), (Elem.mk («type» := (RefType.mk true
        (.Ht .Func))) (init := [[(Instr.RefFunc (FuncIdx.mk 1))], [(Instr.RefNull (HeapType.Ht
        .Func))]]) (mode := ElemMode.Passive)), (Elem.mk («type» := (RefType.mk true (.Ht .Func)))
        (init := [[(Instr.RefFunc (FuncIdx.mk 2))], [(Instr.RefNull (HeapType.Ht .Func))]]) (mode
        := (ElemMode.Active (table := (TableIdx.mk 1)) (offset := [(Instr.I32Const 3)])))),
        (Elem.mk («type» := (RefType.mk true (.Ht .Func))) (init := [[(Instr.RefNull (HeapType.Ht
        .Func))], [(Instr.RefFunc (FuncIdx.mk 3))]]) (mode := ElemMode.Declare))] }) = true := by decide +kernel

/-- tests/tests.rs:977 `it_decodes_reference_instructions`, input tests/fixtures/reference_instructions.wasm -/
example : onOk [0, 97, 115, 109, 1, 0, 0, 0, 1, 4, 1, 96, 0, 0, 3, 3, 2, 0, 0, 4, 4, 1, 112, 0, 1, 7, 8, 1, 4,
        114, 101, 102, 115, 0, 1, 9, 5, 1, 3, 0, 1, 0, 10, 48, 2, 2, 0, 11, 43, 0, 208, 112, 209,
        26, 210, 0, 26, 208, 112, 212, 26, 208, 109, 208, 109, 211, 26, 210, 0, 251, 20, 112, 26,
        208, 112, 251, 21, 112, 26, 210, 0, 251, 22, 112, 26, 208, 112, 251, 23, 112, 26, 11]
    (fun m =>
    same m { moduleDefault with
    parsed_section_kinds := [SectionKind.«Type», SectionKind.Function, SectionKind.Table,
        SectionKind.Export, SectionKind.Element, SectionKind.Code],
    section_headers := [(SectionHeader.mk (kind := SectionKind.«Type») (size := 4)),
        (SectionHeader.mk (kind := SectionKind.Function) (size := 3)), (SectionHeader.mk (kind :=
        SectionKind.Table) (size := 4)), (SectionHeader.mk (kind := SectionKind.Export) (size :=
        8)), (SectionHeader.mk (kind := SectionKind.Element) (size := 5)), (SectionHeader.mk (kind
        := SectionKind.Code) (size := 48))],
    types := (rectypes [(CompType.Func (parameters := []) (results := []))]),
    funcs := [(Func.mk («type» := (TypeIdx.mk 0)) (locals := []) (body := [])), (Func.mk («type»
        := (TypeIdx.mk 0)) (locals := []) (body := [(Instr.RefNull (HeapType.Ht .Func)),
        (Instr.plain .RefIsNull), (Instr.plain .Drop), (Instr.RefFunc (FuncIdx.mk 0)),
        (Instr.plain .Drop), (Instr.RefNull (HeapType.Ht .Func)), (Instr.plain .RefAsNonNull),
        (Instr.plain .Drop), (Instr.RefNull (HeapType.Ht .Eq)), (Instr.RefNull (HeapType.Ht .Eq)),
        (Instr.plain .RefEq), (Instr.plain .Drop), (Instr.RefFunc (FuncIdx.mk 0)), (Instr.RefTest
        (RefType.mk false (.Ht .Func))), (Instr.plain .Drop), (Instr.RefNull (HeapType.Ht .Func)),
        (Instr.RefTest (RefType.mk true (.Ht .Func))), (Instr.plain .Drop), (Instr.RefFunc
        (FuncIdx.mk 0)), (Instr.RefCast (RefType.mk false (.Ht .Func))), (Instr.plain .Drop),
        (Instr.RefNull (HeapType.Ht .Func)), (Instr.RefCast (RefType.mk true (.Ht .Func))),
        (Instr.plain .Drop)]))],
    tables := [(Table.mk (TableType.mk (limits := (Limits.mk (address_type := AddrType.I32) (min
        := 1) (max := none))) (reftype := (RefType.mk true (.Ht .Func)))) [(Instr.RefNull
        (HeapType.Ht .Func))])],
    elems := [(Elem.mk («type» := (RefType.mk true (.Ht .Func))) (init := [[(Instr.RefFunc
        (FuncIdx.mk 0))]]) (mode := ElemMode.Declare))],
    exports := [(Export.mk (name := (Str.mk [114, 101, 102, 115])) (externidx := (ExternIdx.Func
        (FuncIdx.mk 1))))] }) = true := by decide +kernel

/-- tests/tests.rs:1098 `it_decodes_ref_null_exn`, input tests/fixtures/ref_null_exn.wasm -/
example : onOk [0, 97, 115, 109, 1, 0, 0, 0, 1, 5, 1, 96, 0, 1, 105, 3, 2, 1, 0, 10, 6, 1, 4, 0, 208, 105, 11]
    (fun m =>
    same m.types (rectypes [(CompType.Func (parameters := []) (results := [(ValType.Ref (RefType.mk
        (nullable := true) (ht := (HeapType.Ht .Exn))))]))]) && same m.funcs [(Func.mk («type» :=
        (TypeIdx.mk 0)) (locals := []) (body := [(Instr.RefNull (HeapType.Ht .Exn))]))]) = true := by decide +kernel

/-- tests/tests.rs:1122 `it_decodes_ref_test_and_cast`, input tests/fixtures/ref_test_cast.wasm -/
example : onOk [0, 97, 115, 109, 1, 0, 0, 0, 1, 4, 1, 96, 0, 0, 3, 2, 1, 0, 10, 28, 1, 26, 0, 208, 112, 251, 20,
        112, 26, 208, 112, 251, 21, 112, 26, 208, 112, 251, 22, 112, 26, 208, 112, 251, 23, 112,
        26, 11]
    (fun m =>
    same m.funcs.length 1 && same (m.funcs[0]!.body) [(Instr.RefNull (HeapType.Ht .Func)),
        (Instr.RefTest (RefType.mk false (.Ht .Func))), (Instr.plain .Drop), (Instr.RefNull
        (HeapType.Ht .Func)), (Instr.RefTest (RefType.mk true (.Ht .Func))), (Instr.plain .Drop),
        (Instr.RefNull (HeapType.Ht .Func)), (Instr.RefCast (RefType.mk false (.Ht .Func))),
        (Instr.plain .Drop), (Instr.RefNull (HeapType.Ht .Func)), (Instr.RefCast (RefType.mk true
        (.Ht .Func))), (Instr.plain .Drop)]) = true := by decide +kernel

/-- tests/tests.rs:1149 `it_decodes_reftype_heaptype_and_control_v3_forms`, input tests/fixtures/reftype_heaptype_control_v3.wasm -/
example : onOk [0, 97, 115, 109, 1, 0, 0, 0, 1, 8, 2, 96, 0, 0, 96, 1, 110, 0, 3, 6, 5, 0, 0, 0, 1, 1, 9, 5, 1,
        3, 0, 1, 0, 10, 66, 5, 2, 0, 11, 20, 0, 208, 116, 26, 208, 0, 26, 208, 0, 251, 20, 0, 26,
        208, 0, 251, 22, 0, 26, 11, 10, 0, 210, 0, 20, 0, 210, 0, 21, 0, 11, 14, 0, 2, 110, 32, 0,
        251, 24, 3, 0, 110, 109, 11, 26, 11, 14, 0, 2, 110, 32, 0, 251, 25, 3, 0, 110, 109, 11,
        26, 11]
    (fun m =>
    same m.funcs.length 5 && same (m.funcs[1]!.body) [(Instr.RefNull (HeapType.Ht .NoExn)),
        (Instr.plain .Drop), (Instr.RefNull (HeapType.TypeIdx 0)), (Instr.plain .Drop),
        (Instr.RefNull (HeapType.TypeIdx 0)), (Instr.RefTest (RefType.mk (nullable := false) (ht
        := (HeapType.TypeIdx 0)))), (Instr.plain .Drop), (Instr.RefNull (HeapType.TypeIdx 0)),
        (Instr.RefCast (RefType.mk (nullable := false) (ht := (HeapType.TypeIdx 0)))),
        (Instr.plain .Drop)] && same (m.funcs[2]!.body) [(Instr.RefFunc (FuncIdx.mk 0)),
        (Instr.CallRef (TypeIdx.mk 0)), (Instr.RefFunc (FuncIdx.mk 0)), (Instr.ReturnCallRef
        (TypeIdx.mk 0))] && same (m.funcs[3]!.body) [(Instr.Block (BlockType.T (ValType.Ref
        (RefType.mk (nullable := true) (ht := (HeapType.Ht .Any))))) [(Instr.LocalGet (LocalIdx.mk
        0)), (Instr.BrOnCast (LabelIdx.mk 0) (RefType.mk (nullable := true) (ht := (HeapType.Ht
        .Any))) (RefType.mk (nullable := true) (ht := (HeapType.Ht .Eq))))]), (Instr.plain .Drop)]
        && same (m.funcs[4]!.body) [(Instr.Block (BlockType.T (ValType.Ref (RefType.mk (nullable
        := true) (ht := (HeapType.Ht .Any))))) [(Instr.LocalGet (LocalIdx.mk 0)),
        (Instr.BrOnCastFail (LabelIdx.mk 0) (RefType.mk (nullable := true) (ht := (HeapType.Ht
        .Any))) (RefType.mk (nullable := true) (ht := (HeapType.Ht .Eq))))]), (Instr.plain .Drop)]
        && same m.elems [(Elem.mk («type» := (RefType.mk true (.Ht .Func))) (init :=
        [[(Instr.RefFunc (FuncIdx.mk 0))]]) (mode := ElemMode.Declare))]) = true := by decide +kernel

/-- tests/tests.rs:1252 `it_decodes_aggregate_instructions`, input tests/fixtures/aggregate_instructions_gc.wasm -/
example : onOk [0, 97, 115, 109, 1, 0, 0, 0, 1, 18, 4, 95, 3, 127, 0, 120, 1, 119, 0, 94, 120, 0, 94, 127, 0, 96,
        0, 0, 3, 2, 1, 3, 12, 1, 0, 10, 83, 1, 81, 0, 251, 0, 0, 251, 1, 0, 251, 2, 0, 0, 251, 3,
        0, 1, 251, 4, 0, 2, 251, 5, 0, 0, 251, 6, 1, 251, 7, 1, 251, 8, 1, 3, 251, 9, 1, 0, 251,
        10, 1, 0, 251, 11, 2, 251, 12, 1, 251, 13, 1, 251, 14, 1, 251, 15, 251, 16, 1, 251, 17, 1,
        2, 251, 18, 1, 0, 251, 19, 1, 0, 251, 26, 251, 27, 251, 28, 251, 29, 251, 30, 11]
    (fun m =>
    same m.funcs.length 1 && same (m.funcs[0]!.body) [(Instr.StructNew (TypeIdx.mk 0)),
        (Instr.StructNewDefault (TypeIdx.mk 0)), (Instr.StructGet (TypeIdx.mk 0) 0),
        (Instr.StructGetS (TypeIdx.mk 0) 1), (Instr.StructGetU (TypeIdx.mk 0) 2), (Instr.StructSet
        (TypeIdx.mk 0) 0), (Instr.ArrayNew (TypeIdx.mk 1)), (Instr.ArrayNewDefault (TypeIdx.mk
        1)), (Instr.ArrayNewFixed (TypeIdx.mk 1) 3), (Instr.ArrayNewData (TypeIdx.mk 1)
        (DataIdx.mk 0)), (Instr.ArrayNewElem (TypeIdx.mk 1) (ElemIdx.mk 0)), (Instr.ArrayGet
        (TypeIdx.mk 2)), (Instr.ArrayGetS (TypeIdx.mk 1)), (Instr.ArrayGetU (TypeIdx.mk 1)),
        (Instr.ArraySet (TypeIdx.mk 1)), (Instr.plain .ArrayLen), (Instr.ArrayFill (TypeIdx.mk
        1)), (Instr.ArrayCopy (TypeIdx.mk 1) (TypeIdx.mk 2)), (Instr.ArrayInitData (TypeIdx.mk 1)
        (DataIdx.mk 0)), (Instr.ArrayInitElem (TypeIdx.mk 1) (ElemIdx.mk 0)), (Instr.plain
        .AnyConvertExtern), (Instr.plain .ExternConvertAny), (Instr.plain .RefI31), (Instr.plain
        .I31GetS), (Instr.plain .I31GetU)]) = true := by decide +kernel

/-- tests/tests.rs:1292 `it_decodes_variable_instructions`, input tests/fixtures/variable_instructions.wasm -/
example : onOk [0, 97, 115, 109, 1, 0, 0, 0, 1, 6, 1, 96, 2, 127, 127, 0, 3, 2, 1, 0, 6, 6, 1, 127, 1, 65, 0, 11,
        7, 7, 1, 3, 118, 97, 114, 0, 0, 10, 20, 1, 18, 0, 32, 0, 33, 1, 32, 1, 34, 0, 26, 35, 0,
        26, 32, 1, 36, 0, 11]
    (fun m =>
    same m { moduleDefault with
    parsed_section_kinds := [SectionKind.«Type», SectionKind.Function, SectionKind.Global,
        SectionKind.Export, SectionKind.Code],
    section_headers := [(SectionHeader.mk (kind := SectionKind.«Type») (size := 6)),
        (SectionHeader.mk (kind := SectionKind.Function) (size := 2)), (SectionHeader.mk (kind :=
        SectionKind.Global) (size := 6)), (SectionHeader.mk (kind := SectionKind.Export) (size :=
        7)), (SectionHeader.mk (kind := SectionKind.Code) (size := 20))],
    types := (rectypes [(CompType.Func (parameters := [(ValType.Num NumType.Int32), (ValType.Num
        NumType.Int32)]) (results := []))]),
    funcs := [(Func.mk («type» := (TypeIdx.mk 0)) (locals := []) (body := [(Instr.LocalGet
        (LocalIdx.mk 0)), (Instr.LocalSet (LocalIdx.mk 1)), (Instr.LocalGet (LocalIdx.mk 1)),
        (Instr.LocalTee (LocalIdx.mk 0)), (Instr.plain .Drop), (Instr.GlobalGet (GlobalIdx.mk 0)),
        (Instr.plain .Drop), (Instr.LocalGet (LocalIdx.mk 1)), (Instr.GlobalSet (GlobalIdx.mk
        0))]))],
    globals := [(Global.mk («type» := (GlobalType.mk Mut.Var (ValType.Num NumType.Int32))) (init
        := [(Instr.I32Const 0)]))],
    exports := [(Export.mk (name := (Str.mk [118, 97, 114])) (externidx := (ExternIdx.Func
        (FuncIdx.mk 0))))] }) = true := by decide +kernel

/-- tests/tests.rs:1371 `it_decodes_parametric_instructions`, input tests/fixtures/parametric_instructions.wasm -/
example : onOk [0, 97, 115, 109, 1, 0, 0, 0, 1, 8, 1, 96, 3, 127, 127, 127, 1, 127, 3, 2, 1, 0, 7, 9, 1, 5, 112,
        97, 114, 97, 109, 0, 0, 10, 24, 1, 22, 0, 32, 0, 32, 1, 32, 2, 27, 26, 32, 0, 32, 1, 32,
        2, 28, 1, 127, 26, 32, 0, 11]
    (fun m =>
    same m { moduleDefault with
    parsed_section_kinds := [SectionKind.«Type», SectionKind.Function, SectionKind.Export,
        SectionKind.Code],
    section_headers := [(SectionHeader.mk (kind := SectionKind.«Type») (size := 8)),
        (SectionHeader.mk (kind := SectionKind.Function) (size := 2)), (SectionHeader.mk (kind :=
        SectionKind.Export) (size := 9)), (SectionHeader.mk (kind := SectionKind.Code) (size :=
        24))],
    types := (rectypes [(CompType.Func (parameters := [(ValType.Num NumType.Int32), (ValType.Num
        NumType.Int32), (ValType.Num NumType.Int32)]) (results := [(ValType.Num
        NumType.Int32)]))]),
    funcs := [(Func.mk («type» := (TypeIdx.mk 0)) (locals := []) (body := [(Instr.LocalGet
        (LocalIdx.mk 0)), (Instr.LocalGet (LocalIdx.mk 1)), (Instr.LocalGet (LocalIdx.mk 2)),
        (Instr.Select none), (Instr.plain .Drop), (Instr.LocalGet (LocalIdx.mk 0)),
        (Instr.LocalGet (LocalIdx.mk 1)), (Instr.LocalGet (LocalIdx.mk 2)), (Instr.Select (some
        [(ValType.Num NumType.Int32)])), (Instr.plain .Drop), (Instr.LocalGet (LocalIdx.mk
        0))]))],
    exports := [(Export.mk (name := (Str.mk [112, 97, 114, 97, 109])) (externidx :=
        (ExternIdx.Func (FuncIdx.mk 0))))] }) = true := by decide +kernel

/-- tests/tests.rs:1446 `it_decodes_table_entry_init_expr`, input tests/fixtures/table_entry_init_expr.wasm -/
example : onOk [0, 97, 115, 109, 1, 0, 0, 0, 1, 4, 1, 96, 0, 0, 3, 2, 1, 0, 4, 9, 1, 64, 0, 112, 0, 1, 210, 0,
        11, 10, 4, 1, 2, 0, 11]
    (fun m =>
    same m { moduleDefault with
    parsed_section_kinds := [SectionKind.«Type», SectionKind.Function, SectionKind.Table,
        SectionKind.Code],
    section_headers := [(SectionHeader.mk (kind := SectionKind.«Type») (size := 4)),
        (SectionHeader.mk (kind := SectionKind.Function) (size := 2)), (SectionHeader.mk (kind :=
        SectionKind.Table) (size := 9)), (SectionHeader.mk (kind := SectionKind.Code) (size :=
        4))],
    types := (rectypes [(CompType.Func (parameters := []) (results := []))]),
    funcs := [(Func.mk («type» := (TypeIdx.mk 0)) (locals := []) (body := []))],
    tables := [(Table.mk (TableType.mk (limits := (Limits.mk (address_type := AddrType.I32) (min
        := 1) (max := none))) (reftype := (RefType.mk true (.Ht .Func)))) [(Instr.RefFunc
        (FuncIdx.mk 0))])] }) = true := by decide +kernel

/-- tests/tests.rs:1511 `it_decodes_table_instructions`, input tests/fixtures/table_instructions.wasm -/
example : onOk [0, 97, 115, 109, 1, 0, 0, 0, 1, 9, 2, 96, 0, 0, 96, 2, 127, 127, 0, 3, 3, 2, 0, 1, 4, 7, 2, 112,
        0, 4, 112, 0, 4, 7, 13, 1, 9, 116, 97, 98, 108, 101, 95, 111, 112, 115, 0, 1, 9, 9, 2, 1,
        0, 1, 0, 1, 0, 1, 0, 10, 66, 2, 2, 0, 11, 61, 0, 32, 0, 37, 0, 26, 32, 0, 208, 112, 38, 0,
        65, 0, 65, 0, 65, 1, 252, 12, 1, 0, 252, 13, 1, 65, 0, 208, 112, 65, 1, 252, 17, 0, 252,
        16, 0, 26, 208, 112, 32, 1, 252, 15, 0, 26, 65, 0, 65, 0, 65, 1, 252, 14, 0, 1, 252, 16,
        0, 26, 11]
    (fun m =>
    same m { moduleDefault with
    parsed_section_kinds := [SectionKind.«Type», SectionKind.Function, SectionKind.Table,
        SectionKind.Export, SectionKind.Element, SectionKind.Code],
    section_headers := [(SectionHeader.mk (kind := SectionKind.«Type») (size := 9)),
        (SectionHeader.mk (kind := SectionKind.Function) (size := 3)), (SectionHeader.mk (kind :=
        SectionKind.Table) (size := 7)), (SectionHeader.mk (kind := SectionKind.Export) (size :=
        13)), (SectionHeader.mk (kind := SectionKind.Element) (size := 9)), (SectionHeader.mk
        (kind := SectionKind.Code) (size := 66))],
    types := (rectypes [(CompType.Func (parameters := []) (results := [])), (CompType.Func
        (parameters := [(ValType.Num NumType.Int32), (ValType.Num NumType.Int32)]) (results :=
        []))]),
    funcs := [(Func.mk («type» := (TypeIdx.mk 0)) (locals := []) (body := [])), (Func.mk («type»
        := (TypeIdx.mk 1)) (locals := []) (body := [(Instr.LocalGet (LocalIdx.mk 0)),
        (Instr.TableGet (TableIdx.mk 0)), (Instr.plain .Drop), (Instr.LocalGet (LocalIdx.mk 0)),
        (Instr.RefNull (HeapType.Ht .Func)), (Instr.TableSet (TableIdx.mk 0)), (Instr.I32Const 0),
        (Instr.I32Const 0), (Instr.I32Const 1), (Instr.TableInit (TableIdx.mk 0) (ElemIdx.mk 1)),
        (Instr.ElemDrop (ElemIdx.mk 1)), (Instr.I32Const 0), (Instr.RefNull (HeapType.Ht .Func)),
        (Instr.I32Const 1), (Instr.TableFill (TableIdx.mk 0)), (Instr.TableSize (TableIdx.mk 0)),
        (Instr.plain .Drop), (Instr.RefNull (HeapType.Ht .Func)), (Instr.LocalGet (LocalIdx.mk
        1)), (Instr.TableGrow (TableIdx.mk 0)), (Instr.plain .Drop), (Instr.I32Const 0),
        (Instr.I32Const 0), (Instr.I32Const 1), (Instr.TableCopy (TableIdx.mk 0) (TableIdx.mk 1)),
        (Instr.TableSize (TableIdx.mk 0)), (Instr.plain .Drop)]))],
    tables := [(Table.mk (TableType.mk (limits := (Limits.mk (address_type := AddrType.I32) (min
        := 4) (max := none))) (reftype := (RefType.mk true (.Ht .Func)))) [(Instr.RefNull
        (HeapType.Ht .Func))]), (Table.mk (TableType.mk (limits := (Limits.mk (address_type :=
        AddrType.I32) (min := 4) (max := none))) (reftype := (RefType.mk true (.Ht .Func))))
        [(Instr.RefNull (HeapType.Ht .Func))])],
    elems := [(Elem.mk («type» := (RefType.mk true (.Ht .Func))) (init := [[(Instr.RefFunc
        (FuncIdx.mk 0))]]) (mode := ElemMode.Passive)), (Elem.mk («type» := (RefType.mk true (.Ht
        .Func))) (init := [[(Instr.RefFunc (FuncIdx.mk 0))]]) (mode := ElemMode.Passive))],
    exports := [(Export.mk (name := (Str.mk [116, 97, 98, 108, 101, 95, 111, 112, 115]))
        (externidx := (ExternIdx.Func (FuncIdx.mk 1))))] }) = true := by decide +kernel

/-- tests/tests.rs:1660 `it_decodes_memory_instructions`, input tests/fixtures/memory_instructions.wasm -/
example : onOk [0, 97, 115, 109, 1, 0, 0, 0, 1, 4, 1, 96, 0, 0, 3, 2, 1, 0, 5, 3, 1, 0, 1, 7, 20, 2, 3, 109, 101,
        109, 2, 0, 10, 117, 115, 101, 45, 109, 101, 109, 111, 114, 121, 0, 0, 12, 1, 2, 10, 201,
        1, 1, 198, 1, 2, 1, 125, 1, 124, 65, 0, 40, 2, 0, 26, 65, 0, 41, 3, 0, 26, 65, 0, 42, 2,
        0, 34, 0, 26, 65, 0, 43, 3, 0, 34, 1, 26, 65, 0, 44, 0, 0, 26, 65, 0, 45, 0, 0, 26, 65, 0,
        46, 1, 0, 26, 65, 0, 47, 1, 0, 26, 65, 0, 48, 0, 0, 26, 65, 0, 49, 0, 0, 26, 65, 0, 50, 1,
        0, 26, 65, 0, 51, 1, 0, 26, 65, 0, 52, 2, 0, 26, 65, 0, 53, 2, 0, 26, 65, 4, 65, 1, 54, 2,
        0, 65, 8, 66, 2, 55, 3, 0, 65, 16, 32, 0, 56, 2, 0, 65, 24, 32, 1, 57, 3, 0, 65, 32, 65,
        5, 58, 0, 0, 65, 34, 65, 6, 59, 1, 0, 65, 36, 66, 7, 60, 0, 0, 65, 38, 66, 8, 61, 1, 0,
        65, 40, 66, 9, 62, 2, 0, 63, 0, 26, 65, 0, 64, 0, 26, 65, 0, 65, 0, 65, 4, 252, 8, 1, 0,
        252, 9, 1, 65, 8, 65, 0, 65, 4, 252, 10, 0, 0, 65, 12, 65, 255, 1, 65, 4, 252, 11, 0, 11,
        11, 46, 2, 0, 65, 0, 11, 32, 0, 1, 2, 3, 4, 5, 6, 7, 8, 9, 10, 11, 12, 13, 14, 15, 16, 17,
        18, 19, 20, 21, 22, 23, 24, 25, 26, 27, 28, 29, 30, 31, 1, 6, 170, 187, 204, 221, 238,
        255]
    (fun m =>
    same m { moduleDefault with
    parsed_section_kinds := [SectionKind.«Type», SectionKind.Function, SectionKind.Memory,
        SectionKind.Export, SectionKind.DataCount, SectionKind.Code, SectionKind.Data],
    section_headers := [(SectionHeader.mk (kind := SectionKind.«Type») (size := 4)),
        (SectionHeader.mk (kind := SectionKind.Function) (size := 2)), (SectionHeader.mk (kind :=
        SectionKind.Memory) (size := 3)), (SectionHeader.mk (kind := SectionKind.Export) (size :=
        20)), (SectionHeader.mk (kind := SectionKind.DataCount) (size := 1)), (SectionHeader.mk
        (kind := SectionKind.Code) (size := 201)), (SectionHeader.mk (kind := SectionKind.Data)
        (size := 46))],
    types := (rectypes [(CompType.Func (parameters := []) (results := []))]),
    funcs := [(Func.mk («type» := (TypeIdx.mk 0)) (locals := [(ValType.Num NumType.Float32),
        (ValType.Num NumType.Float64)]) (body := [(Instr.I32Const 0), (Instr.mem .I32Load
        (Memarg.mk (mem_idx := (MemIdx.mk 0)) (align := 2) (offset := 0))), (Instr.plain .Drop),
        (Instr.I32Const 0), (Instr.mem .I64Load (Memarg.mk (mem_idx := (MemIdx.mk 0)) (align := 3)
        (offset := 0))), (Instr.plain .Drop), (Instr.I32Const 0), (Instr.mem .F32Load (Memarg.mk
        (mem_idx := (MemIdx.mk 0)) (align := 2) (offset := 0))), (Instr.LocalTee (LocalIdx.mk 0)),
        (Instr.plain .Drop), (Instr.I32Const 0), (Instr.mem .F64Load (Memarg.mk (mem_idx :=
        (MemIdx.mk 0)) (align := 3) (offset := 0))), (Instr.LocalTee (LocalIdx.mk 1)),
        (Instr.plain .Drop), (Instr.I32Const 0), (Instr.mem .I32Load8s (Memarg.mk (mem_idx :=
        (MemIdx.mk 0)) (align := 0) (offset := 0))), (Instr.plain .Drop), (Instr.I32Const 0),
        (Instr.mem .I32Load8u (Memarg.mk (mem_idx := (MemIdx.mk 0)) (align := 0) (offset := 0))),
        (Instr.plain .Drop), (Instr.I32Const 0), (Instr.mem .I32Load16s (Memarg.mk (mem_idx :=
        (MemIdx.mk 0)) (align := 1) (offset := 0))), (Instr.plain .Drop), (Instr.I32Const 0),
        (Instr.mem .I32Load16u (Memarg.mk (mem_idx := (MemIdx.mk 0)) (align := 1) (offset := 0))),
        (Instr.plain .Drop), (Instr.I32Const 0), (Instr.mem .I64Load8s (Memarg.mk (mem_idx :=
        (MemIdx.mk 0)) (align := 0) (offset := 0))), (Instr.plain .Drop), (Instr.I32Const 0),
        (Instr.mem .I64Load8u (Memarg.mk (mem_idx := (MemIdx.mk 0)) (align := 0) (offset := 0))),
        (Instr.plain .Drop), (Instr.I32Const 0), (Instr.mem .I64Load16s (Memarg.mk (mem_idx :=
        (MemIdx.mk 0)) (align := 1) (offset := 0))), (Instr.plain .Drop), (Instr.I32Const 0),
        (Instr.mem .I64Load16u (Memarg.mk (mem_idx := (MemIdx.mk 0)) (align := 1) (offset := 0))),
        (Instr.plain .Drop), (Instr.I32Const 0), (Instr.mem .I64Load32s (Memarg.mk (mem_idx :=
        (MemIdx.mk 0)) (align := 2) (offset := 0))), (Instr.plain .Drop), (Instr.I32Const 0),
        (Instr.mem .I64Load32u (Memarg.mk (mem_idx := (MemIdx.mk 0)) (align := 2) (offset := 0))),
        (Instr.plain .Drop), (Instr.I32Const 4), (Instr.I32Const 1), (Instr.mem .I32Store
        (Memarg.mk (mem_idx := (MemIdx.mk 0)) (align := 2) (offset := 0))), (Instr.I32Const 8),
        (Instr.I64Const 2), (Instr.mem .I64Store (Memarg.mk (mem_idx := (MemIdx.mk 0)) (align :=
        3) (offset := 0))), (Instr.I32Const 16), (Instr.LocalGet (LocalIdx.mk 0)), (Instr.mem
        .F32Store (Memarg.mk (mem_idx := (MemIdx.mk 0)) (align := 2) (offset := 0))),
        (Instr.I32Const 24), (Instr.LocalGet (LocalIdx.mk 1)), (Instr.mem .F64Store (Memarg.mk
        (mem_idx := (MemIdx.mk 0)) (align := 3) (offset := 0))), (Instr.I32Const 32),
        (Instr.I32Const 5), (Instr.mem .I32Store8 (Memarg.mk (mem_idx := (MemIdx.mk 0)) (align :=
        0) (offset := 0))), (Instr.I32Const 34), (Instr.I32Const 6), (Instr.mem .I32Store16
        (Memarg.mk (mem_idx := (MemIdx.mk 0)) (align := 1) (offset := 0))), (Instr.I32Const 36),
        (Instr.I64Const 7), (Instr.mem .I64Store8 (Memarg.mk (mem_idx := (MemIdx.mk 0)) (align :=
        0) (offset := 0))), (Instr.I32Const 38), (Instr.I64Const 8), (Instr.mem .I64Store16
        (Memarg.mk (mem_idx := (MemIdx.mk 0)) (align := 1) (offset := 0))), (Instr.I32Const 40),
        (Instr.I64Const 9), (Instr.mem .I64Store32 (Memarg.mk (mem_idx := (MemIdx.mk 0)) (align :=
        2) (offset := 0))), (Instr.MemorySize (MemIdx.mk 0)), (Instr.plain .Drop), (Instr.I32Const
        0), (Instr.MemoryGrow (MemIdx.mk 0)), (Instr.plain .Drop), (Instr.I32Const 0),
        (Instr.I32Const 0), (Instr.I32Const 4), (Instr.MemoryInit (MemIdx.mk 0) (DataIdx.mk 1)),
        (Instr.DataDrop (DataIdx.mk 1)), (Instr.I32Const 8), (Instr.I32Const 0), (Instr.I32Const
        4), (Instr.MemoryCopy (MemIdx.mk 0) (MemIdx.mk 0)), (Instr.I32Const 12), (Instr.I32Const
        255), (Instr.I32Const 4), (Instr.MemoryFill (MemIdx.mk 0))]))],
    mems := [(MemType.mk (limits := (Limits.mk (address_type := AddrType.I32) (min := 1) (max :=
        none))))],
    datas := [(Data.mk (init := [0, 1, 2, 3, 4, 5, 6, 7, 8, 9, 10, 11, 12, 13, 14, 15, 16, 17, 18,
        19, 20, 21, 22, 23, 24, 25, 26, 27, 28, 29, 30, 31]) (mode := (DataMode.Active (memory :=
        (MemIdx.mk 0)) (offset := [(Instr.I32Const 0)])))), (Data.mk (init := [170, 187, 204, 221,
        238, 255]) (mode := DataMode.Passive))],
    exports := [(Export.mk (name := (Str.mk [109, 101, 109])) (externidx := (ExternIdx.Mem
        (MemIdx.mk 0)))), (Export.mk (name := (Str.mk [117, 115, 101, 45, 109, 101, 109, 111, 114,
        121])) (externidx := (ExternIdx.Func (FuncIdx.mk 0))))],
    data_count := (some 2) }) = true := by decide +kernel

/-- tests/tests.rs:2120 `it_decodes_multi_memory_immediates`, input tests/fixtures/memory_instructions_multi_memidx.wasm -/
example : onOk [0, 97, 115, 109, 1, 0, 0, 0, 1, 4, 1, 96, 0, 0, 3, 2, 1, 0, 5, 5, 2, 0, 1, 0, 1, 12, 1, 1, 10,
        48, 1, 46, 0, 65, 0, 40, 66, 1, 0, 26, 63, 1, 26, 65, 1, 64, 1, 26, 65, 0, 65, 0, 65, 2,
        252, 8, 0, 1, 65, 0, 65, 0, 65, 2, 252, 10, 1, 0, 65, 0, 65, 7, 65, 2, 252, 11, 1, 11, 11,
        5, 1, 1, 2, 104, 105]
    (fun m =>
    same m.mems.length 2 && same m.mems [(MemType.mk (limits := (Limits.mk (address_type :=
        AddrType.I32) (min := 1) (max := none)))), (MemType.mk (limits := (Limits.mk (address_type
        := AddrType.I32) (min := 1) (max := none))))] && same m.funcs.length 1 && same
        (m.funcs[0]!.body) [(Instr.I32Const 0), (Instr.mem .I32Load (Memarg.mk (mem_idx :=
        (MemIdx.mk 1)) (align := 2) (offset := 0))), (Instr.plain .Drop), (Instr.MemorySize
        (MemIdx.mk 1)), (Instr.plain .Drop), (Instr.I32Const 1), (Instr.MemoryGrow (MemIdx.mk 1)),
        (Instr.plain .Drop), (Instr.I32Const 0), (Instr.I32Const 0), (Instr.I32Const 2),
        (Instr.MemoryInit (MemIdx.mk 1) (DataIdx.mk 0)), (Instr.I32Const 0), (Instr.I32Const 0),
        (Instr.I32Const 2), (Instr.MemoryCopy (MemIdx.mk 1) (MemIdx.mk 0)), (Instr.I32Const 0),
        (Instr.I32Const 7), (Instr.I32Const 2), (Instr.MemoryFill (MemIdx.mk 1))] && same
        m.datas.length 1 && same (m.datas[0]!.init) ([104, 105] : List UInt8) && same
        (m.datas[0]!.mode) DataMode.Passive) = true := by decide +kernel

/-- tests/tests.rs:2182 `it_decodes_multi_memory_kitchensink`, input tests/fixtures/multi_memory_kitchensink.wasm -/
example : onOk [0, 97, 115, 109, 1, 0, 0, 0, 1, 4, 1, 96, 0, 0, 3, 2, 1, 0, 5, 5, 2, 0, 1, 0, 1, 12, 1, 3, 10,
        110, 1, 108, 0, 65, 0, 40, 2, 0, 26, 65, 0, 40, 66, 1, 0, 26, 65, 0, 66, 1, 55, 67, 1, 0,
        65, 0, 40, 64, 0, 16, 26, 63, 0, 26, 63, 1, 26, 65, 0, 64, 0, 26, 65, 0, 64, 1, 26, 65, 0,
        65, 0, 65, 1, 252, 8, 1, 0, 252, 9, 1, 65, 0, 65, 0, 65, 1, 252, 8, 1, 1, 65, 0, 65, 0,
        65, 1, 252, 10, 0, 1, 65, 0, 65, 0, 65, 1, 252, 10, 1, 0, 65, 0, 65, 255, 1, 65, 1, 252,
        11, 0, 65, 0, 65, 7, 65, 1, 252, 11, 1, 11, 11, 20, 3, 0, 65, 0, 11, 1, 65, 1, 2, 66, 67,
        2, 1, 65, 4, 11, 3, 68, 69, 70]
    (fun m =>
    same m.mems.length 2 && same m.mems [(MemType.mk (limits := (Limits.mk (address_type :=
        AddrType.I32) (min := 1) (max := none)))), (MemType.mk (limits := (Limits.mk (address_type
        := AddrType.I32) (min := 1) (max := none))))] && same m.data_count (some 3) && same
        m.datas.length 3 && same (m.datas[0]!.init) ([65] : List UInt8) && same (m.datas[0]!.mode)
        (DataMode.Active (memory := (MemIdx.mk 0)) (offset := [(Instr.I32Const 0)])) && same
        (m.datas[1]!.init) ([66, 67] : List UInt8) && same (m.datas[1]!.mode) DataMode.Passive &&
        same (m.datas[2]!.init) ([68, 69, 70] : List UInt8) && same (m.datas[2]!.mode)
        (DataMode.Active (memory := (MemIdx.mk 1)) (offset := [(Instr.I32Const 4)])) && same
        m.funcs.length 1 && same (m.funcs[0]!.body) [(Instr.I32Const 0), (Instr.mem .I32Load
        (Memarg.mk (mem_idx := (MemIdx.mk 0)) (align := 2) (offset := 0))), (Instr.plain .Drop),
        (Instr.I32Const 0), (Instr.mem .I32Load (Memarg.mk (mem_idx := (MemIdx.mk 1)) (align := 2)
        (offset := 0))), (Instr.plain .Drop), (Instr.I32Const 0), (Instr.I64Const 1), (Instr.mem
        .I64Store (Memarg.mk (mem_idx := (MemIdx.mk 1)) (align := 3) (offset := 0))),
        (Instr.I32Const 0), (Instr.mem .I32Load (Memarg.mk (mem_idx := (MemIdx.mk 0)) (align := 0)
        (offset := 16))), (Instr.plain .Drop), (Instr.MemorySize (MemIdx.mk 0)), (Instr.plain
        .Drop), (Instr.MemorySize (MemIdx.mk 1)), (Instr.plain .Drop), (Instr.I32Const 0),
        (Instr.MemoryGrow (MemIdx.mk 0)), (Instr.plain .Drop), (Instr.I32Const 0),
        (Instr.MemoryGrow (MemIdx.mk 1)), (Instr.plain .Drop), (Instr.I32Const 0), (Instr.I32Const
        0), (Instr.I32Const 1), (Instr.MemoryInit (MemIdx.mk 0) (DataIdx.mk 1)), (Instr.DataDrop
        (DataIdx.mk 1)), (Instr.I32Const 0), (Instr.I32Const 0), (Instr.I32Const 1),
        (Instr.MemoryInit (MemIdx.mk 1) (DataIdx.mk 1)), (Instr.I32Const 0), (Instr.I32Const 0),
        (Instr.I32Const 1), (Instr.MemoryCopy (MemIdx.mk 0) (MemIdx.mk 1)), (Instr.I32Const 0),
        (Instr.I32Const 0), (Instr.I32Const 1), (Instr.MemoryCopy (MemIdx.mk 1) (MemIdx.mk 0)),
        (Instr.I32Const 0), (Instr.I32Const 255), (Instr.I32Const 1), (Instr.MemoryFill (MemIdx.mk
        0)), (Instr.I32Const 0), (Instr.I32Const 7), (Instr.I32Const 1), (Instr.MemoryFill
        (MemIdx.mk 1))]) = true := by decide +kernel

/-- tests/tests.rs:2299 `it_accepts_export_with_locals`, input tests/fixtures/with_locals_exported.wasm -/
example : onOk [0, 97, 115, 109, 1, 0, 0, 0, 1, 7, 1, 96, 2, 127, 127, 1, 127, 3, 2, 1, 0, 7, 14, 1, 10, 97, 100,
        100, 95, 108, 111, 99, 97, 108, 115, 0, 0, 10, 11, 1, 9, 1, 2, 127, 32, 0, 32, 1, 106, 11]
    (fun m =>
    same m { moduleDefault with
    parsed_section_kinds := [SectionKind.«Type», SectionKind.Function, SectionKind.Export,
        SectionKind.Code],
    section_headers := [(SectionHeader.mk (kind := SectionKind.«Type») (size := 7)),
        (SectionHeader.mk (kind := SectionKind.Function) (size := 2)), (SectionHeader.mk (kind :=
        SectionKind.Export) (size := 14)), (SectionHeader.mk (kind := SectionKind.Code) (size :=
        11))],
    types := (rectypes [(CompType.Func (parameters := [(ValType.Num NumType.Int32), (ValType.Num
        NumType.Int32)]) (results := [(ValType.Num NumType.Int32)]))]),
    funcs := [(Func.mk («type» := (TypeIdx.mk 0)) (locals := [(ValType.Num NumType.Int32),
        (ValType.Num NumType.Int32)]) (body := [(Instr.LocalGet (LocalIdx.mk 0)), (Instr.LocalGet
        (LocalIdx.mk 1)), (Instr.plain .I32Add)]))],
    exports := [(Export.mk (name := (Str.mk [97, 100, 100, 95, 108, 111, 99, 97, 108, 115]))
        (externidx := (ExternIdx.Func (FuncIdx.mk 0))))] }) = true := by decide +kernel

/-- tests/tests.rs:2363 `it_accepts_kitchensink`, input ./tests/fixtures/kitchensink.wasm -/
example : onOk [0, 97, 115, 109, 1, 0, 0, 0, 0, 7, 4, 110, 111, 116, 101, 104, 105, 1, 10, 2, 96, 0, 0, 96, 2,
        127, 127, 1, 127, 2, 16, 1, 3, 101, 110, 118, 8, 105, 109, 112, 115, 116, 97, 114, 116, 0,
        0, 3, 3, 2, 0, 1, 4, 4, 1, 112, 0, 1, 5, 3, 1, 0, 1, 6, 6, 1, 127, 1, 65, 42, 11, 7, 24,
        4, 3, 97, 100, 100, 0, 2, 3, 109, 101, 109, 2, 0, 3, 116, 97, 98, 1, 0, 2, 103, 48, 3, 0,
        8, 1, 1, 9, 7, 1, 0, 65, 0, 11, 1, 2, 10, 14, 2, 4, 0, 16, 0, 11, 7, 0, 32, 0, 32, 1, 106,
        11, 11, 10, 1, 0, 65, 0, 11, 4, 0, 17, 34, 51]
    (fun m =>
    same m { moduleDefault with
    parsed_section_kinds := [SectionKind.«Type», SectionKind.Import, SectionKind.Function,
        SectionKind.Table, SectionKind.Memory, SectionKind.Global, SectionKind.Export,
        SectionKind.Start, SectionKind.Element, SectionKind.Code, SectionKind.Data],
    section_headers := [(SectionHeader.mk (kind := SectionKind.Custom) (size := 7)),
        (SectionHeader.mk (kind := SectionKind.«Type») (size := 10)), (SectionHeader.mk (kind :=
        SectionKind.Import) (size := 16)), (SectionHeader.mk (kind := SectionKind.Function) (size
        := 3)), (SectionHeader.mk (kind := SectionKind.Table) (size := 4)), (SectionHeader.mk
        (kind := SectionKind.Memory) (size := 3)), (SectionHeader.mk (kind := SectionKind.Global)
        (size := 6)), (SectionHeader.mk (kind := SectionKind.Export) (size := 24)),
        (SectionHeader.mk (kind := SectionKind.Start) (size := 1)), (SectionHeader.mk (kind :=
        SectionKind.Element) (size := 7)), (SectionHeader.mk (kind := SectionKind.Code) (size :=
        14)), (SectionHeader.mk (kind := SectionKind.Data) (size := 10))],
    custom_sections := [(CustomSection.mk (name := (Str.mk [110, 111, 116, 101])) (contents :=
        [104, 105]))],
    types := (rectypes [(CompType.Func (parameters := []) (results := [])), (CompType.Func
        (parameters := [(ValType.Num NumType.Int32), (ValType.Num NumType.Int32)]) (results :=
        [(ValType.Num NumType.Int32)]))]),
    funcs := [(Func.mk («type» := (TypeIdx.mk 0)) (locals := []) (body := [(Instr.Call (FuncIdx.mk
        0))])), (Func.mk («type» := (TypeIdx.mk 1)) (locals := []) (body := [(Instr.LocalGet
        (LocalIdx.mk 0)), (Instr.LocalGet (LocalIdx.mk 1)), (Instr.plain .I32Add)]))],
    tables := [(Table.mk (TableType.mk (limits := (Limits.mk (address_type := AddrType.I32) (min
        := 1) (max := none))) (reftype := (RefType.mk true (.Ht .Func)))) [(Instr.RefNull
        (HeapType.Ht .Func))])],
    mems := [(MemType.mk (limits := (Limits.mk (address_type := AddrType.I32) (min := 1) (max :=
        none))))],
    globals := [(Global.mk («type» := (GlobalType.mk Mut.Var (ValType.Num NumType.Int32))) (init
        := [(Instr.I32Const 42)]))],
    elems := [(Elem.mk («type» := (RefType.mk false (.Ht .Func))) (init := [[(Instr.RefFunc
        (FuncIdx.mk 2))]]) (mode := (ElemMode.Active (table := (TableIdx.mk 0)) (offset :=
        [(Instr.I32Const 0)]))))],
    datas := [(Data.mk (init := [0, 17, 34, 51]) (mode := (DataMode.Active (memory := (MemIdx.mk
        0)) (offset := [(Instr.I32Const 0)]))))],
    imports := [(Import.mk (module_name := (Str.mk [101, 110, 118])) (item_name := (Str.mk [105,
        109, 112, 115, 116, 97, 114, 116])) (extern_type := (ExternType.Func (TypeIdx.mk 0))))],
    exports := [(Export.mk (name := (Str.mk [97, 100, 100])) (externidx := (ExternIdx.Func
        (FuncIdx.mk 2)))), (Export.mk (name := (Str.mk [109, 101, 109])) (externidx :=
        (ExternIdx.Mem (MemIdx.mk 0)))), (Export.mk (name := (Str.mk [116, 97, 98])) (externidx :=
        (ExternIdx.Table (TableIdx.mk 0)))), (Export.mk (name := (Str.mk [103, 48])) (externidx :=
        (ExternIdx.Global (GlobalIdx.mk 0))))],
    start := (some (FuncIdx.mk 1)) }) = true := by decide +kernel

/-- tests/tests.rs:2552 `it_decodes_data_section_multiple_segments`, input tests/fixtures/data_section_multi_segment.wasm -/
example : onOk [0, 97, 115, 109, 1, 0, 0, 0, 5, 3, 1, 0, 1, 11, 14, 2, 128, 0, 65, 0, 11, 1, 65, 0, 65, 1, 11, 1,
        66]
    (fun m =>
    same m { moduleDefault with
    parsed_section_kinds := [SectionKind.Memory, SectionKind.Data],
    section_headers := [(SectionHeader.mk (kind := SectionKind.Memory) (size := 3)),
        (SectionHeader.mk (kind := SectionKind.Data) (size := 14))],
    mems := [(MemType.mk (limits := (Limits.mk (address_type := AddrType.I32) (min := 1) (max :=
        none))))],
    datas := [(Data.mk (init := [65]) (mode := (DataMode.Active (memory := (MemIdx.mk 0)) (offset
        := [(Instr.I32Const 0)])))), (Data.mk (init := [66]) (mode := (DataMode.Active (memory :=
        (MemIdx.mk 0)) (offset := [(Instr.I32Const 1)]))))] }) = true := by decide +kernel

/-- tests/tests.rs:2912 `it_decodes_vector_instructions`, input ./tests/fixtures/vector_instructions.wasm -/
example : onOk [0, 97, 115, 109, 1, 0, 0, 0, 1, 4, 1, 96, 0, 0, 3, 2, 1, 0, 5, 3, 1, 0, 1, 7, 15, 1, 11, 117,
        115, 101, 95, 118, 101, 99, 116, 111, 114, 115, 0, 0, 10, 204, 1, 1, 201, 1, 0, 65, 0,
        253, 0, 4, 0, 65, 16, 253, 0, 4, 0, 253, 110, 253, 12, 0, 1, 2, 3, 4, 5, 6, 7, 8, 9, 10,
        11, 12, 13, 14, 15, 253, 12, 16, 17, 18, 19, 20, 21, 22, 23, 24, 25, 26, 27, 28, 29, 30,
        31, 253, 82, 26, 253, 12, 32, 33, 34, 35, 36, 37, 38, 39, 40, 41, 42, 43, 44, 45, 46, 47,
        253, 21, 0, 26, 253, 12, 48, 49, 50, 51, 52, 53, 54, 55, 56, 57, 58, 59, 60, 61, 62, 63,
        65, 7, 253, 23, 5, 26, 253, 12, 64, 65, 66, 67, 68, 69, 70, 71, 72, 73, 74, 75, 76, 77,
        78, 79, 253, 12, 80, 81, 82, 83, 84, 85, 86, 87, 88, 89, 90, 91, 92, 93, 94, 95, 253, 13,
        0, 16, 1, 17, 2, 18, 3, 19, 4, 20, 5, 21, 6, 22, 7, 23, 26, 253, 12, 96, 97, 98, 99, 100,
        101, 102, 103, 104, 105, 106, 107, 108, 109, 110, 111, 253, 83, 26, 65, 0, 253, 12, 112,
        113, 114, 115, 116, 117, 118, 119, 120, 121, 122, 123, 124, 125, 126, 127, 253, 11, 4, 0,
        11, 11, 70, 1, 0, 65, 0, 11, 64, 0, 1, 2, 3, 4, 5, 6, 7, 8, 9, 10, 11, 12, 13, 14, 15, 16,
        17, 18, 19, 20, 21, 22, 23, 24, 25, 26, 27, 28, 29, 30, 31, 32, 33, 34, 35, 36, 37, 38,
        39, 40, 41, 42, 43, 44, 45, 46, 47, 48, 49, 50, 51, 52, 53, 54, 55, 56, 57, 58, 59, 60,
        61, 62, 63]
    (fun m =>
    same m.parsed_section_kinds [SectionKind.«Type», SectionKind.Function, SectionKind.Memory,
        SectionKind.Export, SectionKind.Code, SectionKind.Data] && same m.section_headers
        [(SectionHeader.mk (kind := SectionKind.«Type») (size := 4)), (SectionHeader.mk (kind :=
        SectionKind.Function) (size := 2)), (SectionHeader.mk (kind := SectionKind.Memory) (size
        := 3)), (SectionHeader.mk (kind := SectionKind.Export) (size := 15)), (SectionHeader.mk
        (kind := SectionKind.Code) (size := 204)), (SectionHeader.mk (kind := SectionKind.Data)
        (size := 70))] && same m.types (rectypes [(CompType.Func (parameters := []) (results :=
        []))]) && same m.mems [(MemType.mk (limits := (Limits.mk (address_type := AddrType.I32)
        (min := 1) (max := none))))] && same m.exports [(Export.mk (name := (Str.mk [117, 115,
        101, 95, 118, 101, 99, 116, 111, 114, 115])) (externidx := (ExternIdx.Func (FuncIdx.mk
        0))))] && same m.funcs.length 1 && same (m.funcs[0]!.«type») (TypeIdx.mk 0) &&
        m.funcs[0]!.locals.isEmpty && same (m.funcs[0]!.body.length) 26 && same (m.funcs[0]!.body)
        [(Instr.I32Const 0), (Instr.mem .V128Load (Memarg.mk (mem_idx := (MemIdx.mk 0)) (align :=
        4) (offset := 0))), (Instr.I32Const 16), (Instr.mem .V128Load (Memarg.mk (mem_idx :=
        (MemIdx.mk 0)) (align := 4) (offset := 0))), (Instr.plain .I8x16Add), (Instr.V128Const
        ⟨[0, 1, 2, 3, 4, 5, 6, 7, 8, 9, 10, 11, 12, 13, 14, 15], rfl⟩), (Instr.V128Const ⟨[16, 17,
        18, 19, 20, 21, 22, 23, 24, 25, 26, 27, 28, 29, 30, 31], rfl⟩), (Instr.plain
        .V128Bitselect), (Instr.plain .Drop), (Instr.V128Const ⟨[32, 33, 34, 35, 36, 37, 38, 39,
        40, 41, 42, 43, 44, 45, 46, 47], rfl⟩), (Instr.lane .I8x16ExtractLaneS (LaneIdx.mk 0)),
        (Instr.plain .Drop), (Instr.V128Const ⟨[48, 49, 50, 51, 52, 53, 54, 55, 56, 57, 58, 59,
        60, 61, 62, 63], rfl⟩), (Instr.I32Const 7), (Instr.lane .I8x16ReplaceLane (LaneIdx.mk 5)),
        (Instr.plain .Drop), (Instr.V128Const ⟨[64, 65, 66, 67, 68, 69, 70, 71, 72, 73, 74, 75,
        76, 77, 78, 79], rfl⟩), (Instr.V128Const ⟨[80, 81, 82, 83, 84, 85, 86, 87, 88, 89, 90, 91,
        92, 93, 94, 95], rfl⟩), (Instr.I8x16Shuffle ⟨[0, 16, 1, 17, 2, 18, 3, 19, 4, 20, 5, 21, 6,
        22, 7, 23], rfl⟩), (Instr.plain .Drop), (Instr.V128Const ⟨[96, 97, 98, 99, 100, 101, 102,
        103, 104, 105, 106, 107, 108, 109, 110, 111], rfl⟩), (Instr.plain .V128AnyTrue),
        (Instr.plain .Drop), (Instr.I32Const 0), (Instr.V128Const ⟨[112, 113, 114, 115, 116, 117,
        118, 119, 120, 121, 122, 123, 124, 125, 126, 127], rfl⟩), (Instr.mem .V128Store (Memarg.mk
        (mem_idx := (MemIdx.mk 0)) (align := 4) (offset := 0)))] && same m.datas.length 1 && same
        (m.datas[0]!.init) ((List.range 64).map UInt8.ofNat) && (match m.datas[0]!.mode with
      | (.Active (memory := memory) (offset := offset)) => same memory (MemIdx.mk 0) && same
          offset [(Instr.I32Const 0)]
      | _ => false)) = true := by decide +kernel

/-- tests/tests.rs:3331 `it_respects_mem_limits`, input tests/fixtures/mem_limits_bug.wasm -/
example : onOk [0, 97, 115, 109, 1, 0, 0, 0, 5, 5, 1, 1, 1, 129, 1]
    (fun m =>
    same m { moduleDefault with
    parsed_section_kinds := [SectionKind.Memory],
    section_headers := [(SectionHeader.mk (kind := SectionKind.Memory) (size := 5))],
    mems := [(MemType.mk (limits := (Limits.mk (address_type := AddrType.I32) (min := 1) (max :=
        (some 129)))))] }) = true := by decide +kernel

/-- tests/tests.rs:3359 `it_decodes_memory64_limits_flags`, input tests/fixtures/memory64_limits_min.wasm -/
example : onOk [0, 97, 115, 109, 1, 0, 0, 0, 5, 3, 1, 4, 1]
    (fun m =>
    same m.mems [(MemType.mk (limits := (Limits.mk (address_type := AddrType.I64) (min := 1) (max :=
        none))))]) = true := by decide +kernel

/-- tests/tests.rs:3359 `it_decodes_memory64_limits_flags`, input tests/fixtures/memory64_limits_min_max.wasm -/
example : onOk [0, 97, 115, 109, 1, 0, 0, 0, 5, 4, 1, 5, 1, 2]
    (fun m2 =>
    same m2.mems [(MemType.mk (limits := (Limits.mk (address_type := AddrType.I64) (min := 1) (max :=
        (some 2)))))]) = true := by decide +kernel

/-- tests/tests.rs:3389 `it_decodes_memory64_limits_large_values`, input tests/fixtures/memory64_limits_large.wasm -/
example : onOk [0, 97, 115, 109, 1, 0, 0, 0, 5, 12, 1, 5, 128, 128, 128, 128, 16, 133, 128, 128, 128, 16]
    (fun m =>
    same m.mems [(MemType.mk (limits := (Limits.mk (address_type := AddrType.I64) (min := 4294967296)
        (max := (some 4294967301)))))]) = true := by decide +kernel

/-- tests/tests.rs:3405 `it_fails_on_code_size_mismatch`, input tests/fixtures/code_section_size_underreported.wasm -/
example : onErr [0, 97, 115, 109, 1, 0, 0, 0, 1, 5, 1, 96, 0, 1, 127, 3, 2, 1, 0, 7, 10, 1, 6, 97, 110, 115, 119,
        101, 114, 0, 0, 10, 5, 1, 4, 0, 65, 42, 11]
    (fun e =>
    (match e with
      | (.DecodeCodeSection (.DecodeList (.ParseElement (position := position) (source :=
          (.DecodeFunctionBody (.ParseInstruction (.ReadOpcode io_err))))))) => same position 0 &&
          same io_err IoError.unexpectedEof
      | _ => false)) = true := by decide +kernel

/-- tests/tests.rs:3405 `it_fails_on_code_size_mismatch`, input tests/fixtures/custom_section_size_overreported.wasm -/
example : onErr [0, 97, 115, 109, 1, 0, 0, 0, 1, 5, 1, 96, 0, 1, 127, 3, 2, 1, 0, 7, 10, 1, 6, 97, 110, 115, 119,
        101, 114, 0, 0, 10, 6, 1, 4, 0, 65, 42, 11, 0, 5, 1, 120, 255]
    (fun e2 =>
    (match e2 with
      | (.SectionSizeMismatch (section_kind := section_kind) (declared := declared) (got := got))
          => same section_kind SectionKind.Custom && same declared 5 && same got 3
      | _ => false)) = true := by decide +kernel

/-- tests/tests.rs:3441 `it_rejects_overlong_type_index_encoding` -/
example : onErr [0, 97, 115, 109, 1, 0, 0, 0, 1, 4, 1, 96, 0, 0, 3, 6, 1, 128, 128, 128, 128, 128]
    (fun e =>
    (match e with
      | (.DecodeFunctionSection (.DecodeList (.ParseElement (position := position) (source := (.mk
          .RepresentationTooLong))))) => same position 0
      | _ => false)) = true := by decide +kernel

/-- tests/tests.rs:3474 `it_rejects_overlong_blocktype_s33`, input tests/fixtures/overlong_blocktype_s33.wasm -/
example : onErr [0, 97, 115, 109, 1, 0, 0, 0, 1, 4, 1, 96, 0, 0, 3, 2, 1, 0, 10, 12, 1, 10, 0, 2, 128, 128, 128,
        128, 128, 0, 11, 11]
    (fun e =>
    (match e with
      | (.DecodeCodeSection (.DecodeList (.ParseElement (position := position) (source :=
          (.DecodeFunctionBody (.ParseInstruction (.Control (.BlockType (.DecodeIndex
          .RepresentationTooLong))))))))) => same position 0
      | _ => false)) = true := by decide +kernel

end Wadec.Check
