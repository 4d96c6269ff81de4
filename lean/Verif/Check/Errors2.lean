import Verif.Check.Base

/-! Generated by tools/gen_tests.py from /repo/tests/error_types.rs: the project's own tests, run on the model by the
kernel.  These are not claims; they are checks that the model is a model of this code. -/

namespace Wadec.Check
open Wadec

set_option maxRecDepth 100000

/-- tests/error_types.rs:1737 `decode_table_error_invalid_reftype_marker`, input tests/fixtures/malformed/table_section_invalid_reftype.wasm -/
example : onErr [0, 97, 115, 109, 1, 0, 0, 0, 4, 2, 1, 0]
    (fun e =>
    (match e with
      | (.DecodeTableSection (.DecodeList (.ParseElement (position := position) (source :=
          (.DecodeTableType (.DecodeRefType (.InvalidMarkerByte (.InvalidMarkerByte err)))))))) =>
          same position 0 && same err (.mk 0)
      | _ => false)) = true := by decide +kernel

/-- tests/error_types.rs:1765 `decode_table_error_reftype_truncated`, input tests/fixtures/malformed/table_section_reftype_truncated.wasm -/
example : onErr [0, 97, 115, 109, 1, 0, 0, 0, 4, 1, 1]
    (fun e =>
    (match e with
      | (.DecodeTableSection (.DecodeList (.ParseElement (position := position) (source := (.Io
          io_err))))) => same position 0 && same io_err IoError.unexpectedEof
      | _ => false)) = true := by decide +kernel

/-- tests/error_types.rs:1788 `decode_table_error_limits_invalid_flag`, input tests/fixtures/malformed/table_section_limits_invalid_flag.wasm -/
example : onErr [0, 97, 115, 109, 1, 0, 0, 0, 4, 3, 1, 112, 2]
    (fun e =>
    (match e with
      | (.DecodeTableSection (.DecodeList (.ParseElement (position := position) (source :=
          (.DecodeTableType (.DecodeLimits (.UnexpectedFlagByte 2))))))) => same position 0
      | _ => false)) = true := by decide +kernel

/-- tests/error_types.rs:1812 `decode_memory_type_error_missing_limits_byte`, input tests/fixtures/malformed/memory_section_missing_limits.wasm -/
example : onErr [0, 97, 115, 109, 1, 0, 0, 0, 5, 1, 1]
    (fun e =>
    (match e with
      | (.DecodeMemorySection (.DecodeList (.ParseElement (position := position) (source := (.mk
          (.ReadFlagByte io_err)))))) => same position 0 && same io_err IoError.unexpectedEof
      | _ => false)) = true := by decide +kernel

/-- tests/error_types.rs:1835 `decode_memory_type_error_unexpected_max_limit_byte`, input tests/fixtures/malformed/memory_section_invalid_limits_flag.wasm -/
example : onErr [0, 97, 115, 109, 1, 0, 0, 0, 5, 2, 1, 2]
    (fun e =>
    (match e with
      | (.DecodeMemorySection (.DecodeList (.ParseElement (position := position) (source := (.mk
          (.UnexpectedFlagByte 2)))))) => same position 0
      | _ => false)) = true := by decide +kernel

/-- tests/error_types.rs:1858 `decode_memory_type_error_missing_min_limit`, input tests/fixtures/malformed/memory_section_missing_min.wasm -/
example : onErr [0, 97, 115, 109, 1, 0, 0, 0, 5, 2, 1, 0]
    (fun e =>
    (match e with
      | (.DecodeMemorySection (.DecodeList (.ParseElement (position := position) (source := (.mk
          (.ReadMinLimit (.Io io_err))))))) => same position 0 && same io_err
          IoError.unexpectedEof
      | _ => false)) = true := by decide +kernel

/-- tests/error_types.rs:1882 `decode_memory_type_error_missing_max_limit`, input tests/fixtures/malformed/memory_section_missing_max.wasm -/
example : onErr [0, 97, 115, 109, 1, 0, 0, 0, 5, 3, 1, 1, 1]
    (fun e =>
    (match e with
      | (.DecodeMemorySection (.DecodeList (.ParseElement (position := position) (source := (.mk
          (.ReadMaxLimit (.Io io_err))))))) => same position 0 && same io_err
          IoError.unexpectedEof
      | _ => false)) = true := by decide +kernel

/-- tests/error_types.rs:1906 `decode_global_type_error_invalid_valtype`, input tests/fixtures/malformed/global_section_invalid_valtype.wasm -/
example : onErr [0, 97, 115, 109, 1, 0, 0, 0, 6, 2, 1, 255]
    (fun e =>
    (match e with
      | (.DecodeGlobalSection (.DecodeList (.ParseElement (position := position) (source :=
          (.DecodeGlobalType (.DecodeValueType (.DecodeRefType (.InvalidMarkerByte
          (.InvalidMarkerByte err))))))))) => same position 0 && same err (.mk 255)
      | _ => false)) = true := by decide +kernel

/-- tests/error_types.rs:1934 `decode_global_type_error_missing_mutability`, input tests/fixtures/malformed/global_section_missing_mutability.wasm -/
example : onErr [0, 97, 115, 109, 1, 0, 0, 0, 6, 2, 1, 127]
    (fun e =>
    (match e with
      | (.DecodeGlobalSection (.DecodeList (.ParseElement (position := position) (source :=
          (.DecodeGlobalType (.DecodeMutability io_err)))))) => same position 0 && same io_err
          IoError.unexpectedEof
      | _ => false)) = true := by decide +kernel

/-- tests/error_types.rs:1959 `decode_global_type_error_invalid_mutability`, input tests/fixtures/malformed/global_section_invalid_mutability.wasm -/
example : onErr [0, 97, 115, 109, 1, 0, 0, 0, 6, 3, 1, 127, 2]
    (fun e =>
    (match e with
      | (.DecodeGlobalSection (.DecodeList (.ParseElement (position := position) (source :=
          (.DecodeGlobalType (.InvalidMutability err)))))) => same position 0 && same err (.mk 2)
      | _ => false)) = true := by decide +kernel

/-- tests/error_types.rs:1984 `parse_preamble_error_io`, input tests/fixtures/malformed/preamble_truncated.wasm -/
example : onErr [0, 97, 115, 109]
    (fun e =>
    (match e with
      | (.ParsePreamble (.Io io_err)) => same io_err IoError.unexpectedEof
      | _ => false)) = true := by decide +kernel

/-- tests/error_types.rs:2001 `parse_preamble_error_unexpected`, input tests/fixtures/malformed/preamble_unexpected.wasm -/
example : onErr [0, 97, 115, 109, 2, 0, 0, 0]
    (fun e =>
    (match e with
      | (.ParsePreamble (.Unexpected bytes)) => !(same bytes ([0, 97, 115, 109, 1, 0, 0, 0] : List
          UInt8))
      | _ => false)) = true := by decide +kernel

/-- tests/error_types.rs:2018 `decode_section_header_error_invalid_section_id`, input tests/fixtures/malformed/invalid_section_id.wasm -/
example : onErr [0, 97, 115, 109, 1, 0, 0, 0, 14]
    (fun e =>
    (match e with
      | (.DecodeSectionHeader (.InvalidSectionId err)) => same err (.mk 14)
      | _ => false)) = true := by decide +kernel

/-- tests/error_types.rs:2035 `decode_module_section_out_of_order`, input tests/fixtures/malformed/section_out_of_order.wasm -/
example : onErr [0, 97, 115, 109, 1, 0, 0, 0, 5, 1, 0, 1, 1, 0]
    (fun e =>
    (match e with
      | (.SectionOutOfOrder (current := current) (previous := previous)) => same current
          (SectionKind.«Type») && same previous SectionKind.Memory
      | _ => false)) = true := by decide +kernel

/-- tests/error_types.rs:2053 `decode_module_duplicate_section`, input tests/fixtures/malformed/duplicate_type_section.wasm -/
example : onErr [0, 97, 115, 109, 1, 0, 0, 0, 1, 1, 0, 1, 1, 0]
    (fun e =>
    (match e with
      | (.DuplicateSection kind) => same kind (SectionKind.«Type»)
      | _ => false)) = true := by decide +kernel

/-- tests/error_types.rs:2068 `decode_module_section_size_mismatch`, input tests/fixtures/malformed/type_section_size_mismatch.wasm -/
example : onErr [0, 97, 115, 109, 1, 0, 0, 0, 1, 5, 0, 0, 0, 0, 0]
    (fun e =>
    (match e with
      | (.SectionSizeMismatch (section_kind := section_kind) (declared := declared) (got := got))
          => same section_kind (SectionKind.«Type») && (decide (declared.toUInt64 > got))
      | _ => false)) = true := by decide +kernel

/-- tests/error_types.rs:2090 `decode_module_code_func_entries_len_mismatch`, input tests/fixtures/malformed/code_func_len_mismatch.wasm -/
example : onErr [0, 97, 115, 109, 1, 0, 0, 0, 1, 4, 1, 96, 0, 0, 3, 2, 1, 0, 10, 1, 0]
    (fun e =>
    (match e with
      | (.CodeFuncEntriesLenMismatch (codes_len := codes_len) (funcs_len := funcs_len)) => same
          codes_len 0 && same funcs_len 1
      | _ => false)) = true := by decide +kernel

/-- tests/error_types.rs:2111 `decode_module_data_count_mismatch`, input tests/fixtures/malformed/data_count_mismatch.wasm -/
example : onErr [0, 97, 115, 109, 1, 0, 0, 0, 12, 1, 1, 11, 1, 0]
    (fun e =>
    (match e with
      | (.DataCountMismatch (datas_len := datas_len) (data_count := data_count)) => same datas_len
          0 && same data_count 1
      | _ => false)) = true := by decide +kernel

/-- tests/error_types.rs:2132 `decode_module_data_count_datas_len_mismatch`, input tests/fixtures/malformed/data_count_datas_len_mismatch.wasm -/
example : onErr [0, 97, 115, 109, 1, 0, 0, 0, 12, 1, 1]
    (fun e =>
    (match e with
      | (.DataCountDatasLenMismatch (datas_len := datas_len) (data_count := data_count)) => same
          datas_len 0 && same data_count 1
      | _ => false)) = true := by decide +kernel

/-- tests/error_types.rs:2153 `decode_module_data_index_without_data_count`, input tests/fixtures/malformed/data_index_without_data_count.wasm -/
example : onErr [0, 97, 115, 109, 1, 0, 0, 0, 1, 4, 1, 96, 0, 0, 3, 2, 1, 0, 10, 8, 1, 6, 0, 252, 8, 0, 0, 11]
    (fun e =>
    (match e with
      | .DataIndexWithoutDataCount => true
      | _ => false)) = true := by decide +kernel

/-- tests/error_types.rs:2168 `decode_module_data_index_without_data_count_nested_controls`, input tests/fixtures/malformed/data_index_without_data_count_nested_controls.wasm -/
example : onErr [0, 97, 115, 109, 1, 0, 0, 0, 1, 4, 1, 96, 0, 0, 3, 2, 1, 0, 10, 56, 1, 54, 0, 2, 64, 3, 64, 4,
        64, 31, 64, 1, 2, 0, 252, 8, 0, 0, 252, 9, 0, 251, 9, 0, 0, 251, 18, 0, 0, 11, 5, 31, 64,
        1, 2, 0, 251, 18, 0, 0, 251, 9, 0, 0, 252, 9, 0, 252, 8, 0, 0, 11, 11, 11, 11, 11]
    (fun e =>
    (match e with
      | .DataIndexWithoutDataCount => true
      | _ => false)) = true := by decide +kernel

/-- tests/error_types.rs:2188 `decode_custom_section_error_decode_name_length`, input tests/fixtures/malformed/custom_name_length_overlong.wasm -/
example : onErr [0, 97, 115, 109, 1, 0, 0, 0, 0, 5, 128, 128, 128, 128, 128]
    (fun e =>
    (match e with
      | (.DecodeCustomSection (.DecodeName (.DecodeByteVector (.DecodeLength
          .RepresentationTooLong)))) => true
      | _ => false)) = true := by decide +kernel

/-- tests/error_types.rs:2207 `decode_custom_section_error_decode_name_truncated`, input tests/fixtures/malformed/custom_name_truncated_bytes.wasm -/
example : onErr [0, 97, 115, 109, 1, 0, 0, 0, 0, 2, 3, 97]
    (fun e =>
    (match e with
      | (.DecodeCustomSection (.DecodeName (.DecodeByteVector (.ReadElements io_err)))) => same
          io_err IoError.unexpectedEof
      | _ => false)) = true := by decide +kernel

/-- tests/error_types.rs:2224 `decode_custom_section_error_invalid_utf8_name`, input tests/fixtures/malformed/custom_name_invalid_utf8.wasm -/
example : onErr [0, 97, 115, 109, 1, 0, 0, 0, 0, 2, 1, 255]
    (fun e =>
    (match e with
      | (.DecodeCustomSection (.DecodeName (.Utf8 err))) => same err.valid_up_to 0 && same
          err.error_len (some 1)
      | _ => false)) = true := by decide +kernel

/-- tests/error_types.rs:2245 `decode_import_section_error_module_name`, input tests/fixtures/malformed/import_module_name_decode_error.wasm -/
example : onErr [0, 97, 115, 109, 1, 0, 0, 0, 2, 2, 1, 128]
    (fun e =>
    (match e with
      | (.DecodeImportSection (.DecodeList (.ParseElement (position := position) (source :=
          (.DecodeModuleName (.DecodeByteVector (.DecodeLength (.Io io_err)))))))) => same
          position 0 && same io_err IoError.unexpectedEof
      | _ => false)) = true := by decide +kernel

/-- tests/error_types.rs:2271 `decode_import_section_error_entity_name_utf8`, input tests/fixtures/malformed/import_entity_name_utf8_error.wasm -/
example : onErr [0, 97, 115, 109, 1, 0, 0, 0, 2, 5, 1, 1, 109, 1, 255]
    (fun e =>
    (match e with
      | (.DecodeImportSection (.DecodeList (.ParseElement (position := position) (source :=
          (.DecodeItemName (.Utf8 err)))))) => same position 0 && same err.valid_up_to 0 && same
          err.error_len (some 1)
      | _ => false)) = true := by decide +kernel

/-- tests/error_types.rs:2296 `decode_import_error_descriptor_missing_byte`, input tests/fixtures/malformed/import_descriptor_missing_byte.wasm -/
example : onErr [0, 97, 115, 109, 1, 0, 0, 0, 2, 5, 1, 1, 109, 1, 110]
    (fun e =>
    (match e with
      | (.DecodeImportSection (.DecodeList (.ParseElement (position := position) (source :=
          (.DecodeExternType (.ReadMarkerByte io_err)))))) => same position 0 && same io_err
          IoError.unexpectedEof
      | _ => false)) = true := by decide +kernel

/-- tests/error_types.rs:2320 `decode_import_error_invalid_descriptor`, input tests/fixtures/malformed/import_invalid_descriptor.wasm -/
example : onErr [0, 97, 115, 109, 1, 0, 0, 0, 2, 6, 1, 1, 109, 1, 110, 255]
    (fun e =>
    (match e with
      | (.DecodeImportSection (.DecodeList (.ParseElement (position := position) (source :=
          (.DecodeExternType (.InvalidMarkerByte b)))))) => same position 0 && same b 255
      | _ => false)) = true := by decide +kernel

/-- tests/error_types.rs:2344 `decode_import_error_typeidx_overlong`, input tests/fixtures/malformed/import_typeidx_overlong.wasm -/
example : onErr [0, 97, 115, 109, 1, 0, 0, 0, 2, 11, 1, 1, 109, 1, 110, 0, 128, 128, 128, 128, 16]
    (fun e =>
    (match e with
      | (.DecodeImportSection (.DecodeList (.ParseElement (position := position) (source :=
          (.DecodeExternType (.DecodeTypeIndex (.mk .TooLarge))))))) => same position 0
      | _ => false)) = true := by decide +kernel

/-- tests/error_types.rs:2369 `decode_import_error_table_invalid_reftype`, input tests/fixtures/malformed/import_table_invalid_reftype.wasm -/
example : onErr [0, 97, 115, 109, 1, 0, 0, 0, 2, 7, 1, 1, 109, 1, 110, 1, 0]
    (fun e =>
    (match e with
      | (.DecodeImportSection (.DecodeList (.ParseElement (position := position) (source :=
          (.DecodeExternType (.DecodeTableType (.DecodeRefType (.InvalidMarkerByte
          (.InvalidMarkerByte err))))))))) => same position 0 && same err (.mk 0)
      | _ => false)) = true := by decide +kernel

/-- tests/error_types.rs:2397 `decode_import_error_memory_invalid_limits`, input tests/fixtures/malformed/import_memory_invalid_limits.wasm -/
example : onErr [0, 97, 115, 109, 1, 0, 0, 0, 2, 7, 1, 1, 109, 1, 110, 2, 2]
    (fun e =>
    (match e with
      | (.DecodeImportSection (.DecodeList (.ParseElement (position := position) (source :=
          (.DecodeExternType (.DecodeMemoryType (.mk (.UnexpectedFlagByte 2)))))))) => same
          position 0
      | _ => false)) = true := by decide +kernel

/-- tests/error_types.rs:2422 `decode_import_error_global_invalid_mutability`, input tests/fixtures/malformed/import_global_invalid_mutability.wasm -/
example : onErr [0, 97, 115, 109, 1, 0, 0, 0, 2, 8, 1, 1, 109, 1, 110, 3, 127, 2]
    (fun e =>
    (match e with
      | (.DecodeImportSection (.DecodeList (.ParseElement (position := position) (source :=
          (.DecodeExternType (.DecodeGlobalType (.InvalidMutability err))))))) => same position 0
          && same err (.mk 2)
      | _ => false)) = true := by decide +kernel

/-- tests/error_types.rs:2449 `decode_export_section_error_name_decode`, input tests/fixtures/malformed/export_name_decode_error.wasm -/
example : onErr [0, 97, 115, 109, 1, 0, 0, 0, 7, 6, 1, 128, 128, 128, 128, 128]
    (fun e =>
    (match e with
      | (.DecodeExportSection (.DecodeList (.ParseElement (position := position) (source :=
          (.DecodeName (.DecodeByteVector (.DecodeLength .RepresentationTooLong))))))) => same
          position 0
      | _ => false)) = true := by decide +kernel

/-- tests/error_types.rs:2474 `decode_export_error_descriptor_missing_byte`, input tests/fixtures/malformed/export_descriptor_missing_byte.wasm -/
example : onErr [0, 97, 115, 109, 1, 0, 0, 0, 7, 3, 1, 1, 120]
    (fun e =>
    (match e with
      | (.DecodeExportSection (.DecodeList (.ParseElement (position := position) (source :=
          (.ReadDescriptorMarkerByte io_err))))) => same position 0 && same io_err
          IoError.unexpectedEof
      | _ => false)) = true := by decide +kernel

/-- tests/error_types.rs:2497 `decode_export_error_index_decode`, input tests/fixtures/malformed/export_index_decode_error.wasm -/
example : onErr [0, 97, 115, 109, 1, 0, 0, 0, 7, 9, 1, 1, 120, 0, 128, 128, 128, 128, 16]
    (fun e =>
    (match e with
      | (.DecodeExportSection (.DecodeList (.ParseElement (position := position) (source :=
          (.DecodeIndex u32_err))))) => same position 0 && (match u32_err with
        | .TooLarge => true
        | _ => false)
      | _ => false)) = true := by decide +kernel

/-- tests/error_types.rs:2523 `decode_export_error_invalid_descriptor`, input tests/fixtures/malformed/export_invalid_descriptor.wasm -/
example : onErr [0, 97, 115, 109, 1, 0, 0, 0, 7, 5, 1, 1, 120, 255, 0]
    (fun e =>
    (match e with
      | (.DecodeExportSection (.DecodeList (.ParseElement (position := position) (source :=
          (.InvalidDescriptorMarkerByte err))))) => same position 0 && same err (.mk 255)
      | _ => false)) = true := by decide +kernel

/-- tests/error_types.rs:2546 `decode_start_section_error_func_idx`, input tests/fixtures/malformed/start_section_funcidx_overlong.wasm -/
example : onErr [0, 97, 115, 109, 1, 0, 0, 0, 8, 5, 128, 128, 128, 128, 16]
    (fun e =>
    (match e with
      | (.DecodeStartSection (.mk (.mk .TooLarge))) => true
      | _ => false)) = true := by decide +kernel

/-- tests/error_types.rs:2563 `decode_code_error_function_size_truncated`, input tests/fixtures/malformed/code_section_function_size_truncated.wasm -/
example : onErr [0, 97, 115, 109, 1, 0, 0, 0, 1, 4, 1, 96, 0, 0, 3, 2, 1, 0, 10, 1, 1]
    (fun e =>
    (match e with
      | (.DecodeCodeSection (.DecodeList (.ParseElement (position := position) (source :=
          (.DecodeFunctionSize u32_err))))) => same position 0 && (match u32_err with
        | (.Io io_err) => same io_err IoError.unexpectedEof
        | _ => false)
      | _ => false)) = true := by decide +kernel

/-- tests/error_types.rs:2592 `decode_code_error_locals_vector_length_overlong`, input tests/fixtures/malformed/code_section_locals_vector_length_overlong.wasm -/
example : onErr [0, 97, 115, 109, 1, 0, 0, 0, 1, 4, 1, 96, 0, 0, 3, 2, 1, 0, 10, 7, 1, 5, 128, 128, 128, 128, 128]
    (fun e =>
    (match e with
      | (.DecodeCodeSection (.DecodeList (.ParseElement (position := position) (source :=
          (.DecodeLocalsVector (.DecodeLength .RepresentationTooLong)))))) => same position 0
      | _ => false)) = true := by decide +kernel

/-- tests/error_types.rs:2617 `decode_code_locals_error_count_out_of_bounds`, input tests/fixtures/malformed/code_section_locals_count_out_of_bounds.wasm -/
example : onErr [0, 97, 115, 109, 1, 0, 0, 0, 1, 4, 1, 96, 0, 0, 3, 2, 1, 0, 10, 12, 1, 10, 2, 255, 255, 255, 255,
        15, 127, 1, 127, 11]
    (fun e =>
    (match e with
      | (.DecodeCodeSection (.DecodeList (.ParseElement (position := position) (source :=
          (.DecodeLocalsVector (.ParseElement (position := locals_position) (source :=
          (.LocalsCountOutOfBound (max_locals := max_locals) (actual_locals :=
          actual_locals))))))))) => same position 0 && same locals_position 1 && same max_locals
          4294967295 && same actual_locals 4294967296
      | _ => false)) = true := by decide +kernel

/-- tests/error_types.rs:2651 `decode_code_locals_error_decode_count`, input tests/fixtures/malformed/code_section_locals_count_decode_error.wasm -/
example : onErr [0, 97, 115, 109, 1, 0, 0, 0, 1, 4, 1, 96, 0, 0, 3, 2, 1, 0, 10, 4, 1, 2, 1, 128]
    (fun e =>
    (match e with
      | (.DecodeCodeSection (.DecodeList (.ParseElement (position := position) (source :=
          (.DecodeLocalsVector (.ParseElement (position := locals_position) (source :=
          (.DecodeLocalsCount (.Io io_err))))))))) => same position 0 && same locals_position 0 &&
          same io_err IoError.unexpectedEof
      | _ => false)) = true := by decide +kernel

/-- tests/error_types.rs:2680 `decode_code_error_local_valtype_invalid`, input tests/fixtures/malformed/code_section_local_valtype_invalid.wasm -/
example : onErr [0, 97, 115, 109, 1, 0, 0, 0, 1, 4, 1, 96, 0, 0, 3, 2, 1, 0, 10, 6, 1, 4, 1, 1, 255, 11]
    (fun e =>
    (match e with
      | (.DecodeCodeSection (.DecodeList (.ParseElement (position := position) (source :=
          (.DecodeLocalsVector (.ParseElement (position := locals_position) (source :=
          (.DecodeLocalValType (.DecodeRefType (.InvalidMarkerByte (.InvalidMarkerByte
          err))))))))))) => same position 0 && same locals_position 0 && same err (.mk 255)
      | _ => false)) = true := by decide +kernel

/-- tests/error_types.rs:2716 `decode_code_error_entry_size_mismatch`, input tests/fixtures/malformed/code_section_entry_size_mismatch.wasm -/
example : onErr [0, 97, 115, 109, 1, 0, 0, 0, 1, 4, 1, 96, 0, 0, 3, 2, 1, 0, 10, 5, 1, 3, 0, 11, 0]
    (fun e =>
    (match e with
      | (.DecodeCodeSection (.DecodeList (.ParseElement (position := position) (source :=
          (.EntrySizeMismatch (declared_bytes := declared_bytes) (leftover_bytes :=
          leftover_bytes) (consumed_bytes := consumed_bytes)))))) => same position 0 && same
          declared_bytes 3 && same leftover_bytes 1 && same consumed_bytes 2
      | _ => false)) = true := by decide +kernel

/-- tests/error_types.rs:2747 `parse_expression_error_unexpected_else`, input tests/fixtures/malformed/expression_unexpected_else.wasm -/
example : onErr [0, 97, 115, 109, 1, 0, 0, 0, 1, 4, 1, 96, 0, 0, 3, 2, 1, 0, 10, 4, 1, 2, 0, 5]
    (fun e =>
    (match e with
      | (.DecodeCodeSection (.DecodeList (.ParseElement (position := position) (source :=
          (.DecodeFunctionBody .UnexpectedElse))))) => same position 0
      | _ => false)) = true := by decide +kernel

/-- tests/error_types.rs:2769 `decode_element_section_error_bitfield_decode`, input tests/fixtures/malformed/element_bitfield_decode_error.wasm -/
example : onErr [0, 97, 115, 109, 1, 0, 0, 0, 9, 6, 1, 128, 128, 128, 128, 128]
    (fun e =>
    (match e with
      | (.DecodeElementSection (.DecodeList (.ParseElement (position := position) (source :=
          (.DecodeBitfield .RepresentationTooLong))))) => same position 0
      | _ => false)) = true := by decide +kernel

/-- tests/error_types.rs:2789 `decode_element_error_invalid_bitfield`, input tests/fixtures/malformed/element_invalid_bitfield.wasm -/
example : onErr [0, 97, 115, 109, 1, 0, 0, 0, 9, 2, 1, 9]
    (fun e =>
    (match e with
      | (.DecodeElementSection (.DecodeList (.ParseElement (position := position) (source :=
          (.InvalidBitfield n))))) => same position 0 && same n 9
      | _ => false)) = true := by decide +kernel

/-- tests/error_types.rs:2812 `decode_element_error_offset_expression`, input tests/fixtures/malformed/element_offset_expr_missing.wasm -/
example : onErr [0, 97, 115, 109, 1, 0, 0, 0, 9, 2, 1, 0]
    (fun e =>
    (match e with
      | (.DecodeElementSection (.DecodeList (.ParseElement (position := position) (source :=
          (.DecodeOffsetExpression (.ParseInstruction (.ReadOpcode io_err))))))) => same position
          0 && same io_err IoError.unexpectedEof
      | _ => false)) = true := by decide +kernel

/-- tests/error_types.rs:2838 `decode_element_error_elemkind_invalid`, input tests/fixtures/malformed/element_elemkind_invalid.wasm -/
example : onErr [0, 97, 115, 109, 1, 0, 0, 0, 9, 3, 1, 1, 1]
    (fun e =>
    (match e with
      | (.DecodeElementSection (.DecodeList (.ParseElement (position := position) (source :=
          (.DecodeElementKind (.InvalidElemKind 1)))))) => same position 0
      | _ => false)) = true := by decide +kernel

/-- tests/error_types.rs:2861 `decode_element_error_elemkind_io`, input tests/fixtures/malformed/element_elemkind_io.wasm -/
example : onErr [0, 97, 115, 109, 1, 0, 0, 0, 9, 2, 1, 1]
    (fun e =>
    (match e with
      | (.DecodeElementSection (.DecodeList (.ParseElement (position := position) (source :=
          (.DecodeElementKind (.Io io_err)))))) => same position 0 && same io_err
          IoError.unexpectedEof
      | _ => false)) = true := by decide +kernel

/-- tests/error_types.rs:2884 `decode_element_error_reference_type_invalid`, input tests/fixtures/malformed/element_reftype_invalid.wasm -/
example : onErr [0, 97, 115, 109, 1, 0, 0, 0, 9, 3, 1, 5, 0]
    (fun e =>
    (match e with
      | (.DecodeElementSection (.DecodeList (.ParseElement (position := position) (source :=
          (.DecodeReferenceType (.InvalidMarkerByte (.InvalidMarkerByte err))))))) => same
          position 0 && same err (.mk 0)
      | _ => false)) = true := by decide +kernel

/-- tests/error_types.rs:2910 `decode_element_error_init_decode_length`, input tests/fixtures/malformed/element_init_decode_length.wasm -/
example : onErr [0, 97, 115, 109, 1, 0, 0, 0, 9, 8, 1, 4, 11, 128, 128, 128, 128, 128]
    (fun e =>
    (match e with
      | (.DecodeElementSection (.DecodeList (.ParseElement (position := position) (source :=
          (.DecodeInit (.DecodeLength .RepresentationTooLong)))))) => same position 0
      | _ => false)) = true := by decide +kernel

/-- tests/error_types.rs:2935 `decode_element_error_funcidx_vector_overlong`, input tests/fixtures/malformed/element_funcidx_vector_overlong.wasm -/
example : onErr [0, 97, 115, 109, 1, 0, 0, 0, 9, 9, 1, 1, 0, 1, 128, 128, 128, 128, 16]
    (fun e =>
    (match e with
      | (.DecodeElementSection (.DecodeList (.ParseElement (position := position) (source :=
          (.DecodeFuncIdxVector (.ParseElement (position := func_pos) (source := (.mk
          .TooLarge)))))))) => same position 0 && same func_pos 0
      | _ => false)) = true := by decide +kernel

/-- tests/error_types.rs:2962 `decode_element_error_table_idx_overlong`, input tests/fixtures/malformed/element_tableidx_overlong.wasm -/
example : onErr [0, 97, 115, 109, 1, 0, 0, 0, 9, 10, 1, 2, 128, 128, 128, 128, 16, 11, 0, 0]
    (fun e =>
    (match e with
      | (.DecodeElementSection (.DecodeList (.ParseElement (position := position) (source :=
          (.DecodeTableIdx (.mk .TooLarge)))))) => same position 0
      | _ => false)) = true := by decide +kernel

/-- tests/error_types.rs:2985 `decode_element_error_expression_missing_opcode`, input tests/fixtures/malformed/element_expression_missing_opcode.wasm -/
example : onErr [0, 97, 115, 109, 1, 0, 0, 0, 9, 3, 1, 2, 0]
    (fun e =>
    (match e with
      | (.DecodeElementSection (.DecodeList (.ParseElement (position := position) (source :=
          (.DecodeElementExpression (.ParseInstruction (.ReadOpcode io_err))))))) => same position
          0 && same io_err IoError.unexpectedEof
      | _ => false)) = true := by decide +kernel

/-- tests/error_types.rs:3012 `decode_data_section_error_bitfield_decode`, input tests/fixtures/malformed/data_bitfield_decode_error.wasm -/
example : onErr [0, 97, 115, 109, 1, 0, 0, 0, 11, 6, 1, 128, 128, 128, 128, 128]
    (fun e =>
    (match e with
      | (.DecodeDataSection (.DecodeList (.ParseElement (position := position) (source :=
          (.DecodeBitfield .RepresentationTooLong))))) => same position 0
      | _ => false)) = true := by decide +kernel

/-- tests/error_types.rs:3035 `decode_data_section_error_invalid_bitfield`, input tests/fixtures/malformed/data_invalid_bitfield.wasm -/
example : onErr [0, 97, 115, 109, 1, 0, 0, 0, 11, 2, 1, 3]
    (fun e =>
    (match e with
      | (.DecodeDataSection (.DecodeList (.ParseElement (position := position) (source :=
          (.InvalidBitfield n))))) => same position 0 && same n 3
      | _ => false)) = true := by decide +kernel

/-- tests/error_types.rs:3058 `decode_data_section_error_offset_expr_missing`, input tests/fixtures/malformed/data_offset_expr_missing.wasm -/
example : onErr [0, 97, 115, 109, 1, 0, 0, 0, 11, 2, 1, 0]
    (fun e =>
    (match e with
      | (.DecodeDataSection (.DecodeList (.ParseElement (position := position) (source :=
          (.DecodeOffsetExpr (.ParseInstruction (.ReadOpcode io_err))))))) => same position 0 &&
          same io_err IoError.unexpectedEof
      | _ => false)) = true := by decide +kernel

/-- tests/error_types.rs:3084 `decode_data_section_error_init_vector_truncated`, input tests/fixtures/malformed/data_init_vector_truncated.wasm -/
example : onErr [0, 97, 115, 109, 1, 0, 0, 0, 11, 4, 1, 1, 2, 65]
    (fun e =>
    (match e with
      | (.DecodeDataSection (.DecodeList (.ParseElement (position := position) (source :=
          (.DecodeInitVector (.ReadElements io_err)))))) => same position 0 && same io_err
          IoError.unexpectedEof
      | _ => false)) = true := by decide +kernel

/-- tests/error_types.rs:3110 `decode_datacount_section_error_decode_segment_count`, input tests/fixtures/malformed/data_count_decode_error.wasm -/
example : onErr [0, 97, 115, 109, 1, 0, 0, 0, 12, 5, 128, 128, 128, 128, 128]
    (fun e =>
    (match e with
      | (.DecodeDatacountSection (.DecodeDataSegmentCount .RepresentationTooLong)) => true
      | _ => false)) = true := by decide +kernel

/-- tests/error_types.rs:3129 `decode_global_error_init_missing_expr`, input tests/fixtures/malformed/global_section_init_missing_expr.wasm -/
example : onErr [0, 97, 115, 109, 1, 0, 0, 0, 6, 3, 1, 127, 0]
    (fun e =>
    (match e with
      | (.DecodeGlobalSection (.DecodeList (.ParseElement (position := position) (source :=
          (.DecodeInit (.ParseInstruction (.ReadOpcode io_err))))))) => same position 0 && same
          io_err IoError.unexpectedEof
      | _ => false)) = true := by decide +kernel

/-- tests/error_types.rs:3156 `decode_tag_section_error_invalid_marker`, input tests/fixtures/malformed/tag_section_invalid_marker.wasm -/
example : onErr [0, 97, 115, 109, 1, 0, 0, 0, 1, 4, 1, 96, 0, 0, 13, 3, 1, 1, 0]
    (fun e =>
    (match e with
      | (.DecodeTagSection (.DecodeList (.ParseElement (position := position) (source :=
          (.InvalidMarkerByte byte))))) => same position 0 && same byte 1
      | _ => false)) = true := by decide +kernel

end Wadec.Check
