{
 "claims": [
  {
   "property": "C01",
   "status": "proved",
   "theorems": [
    "Wadec.c01_u32",
    "Wadec.c01_u32_closed"
   ],
   "note": ""
  },
  {
   "property": "C02",
   "status": "proved",
   "theorems": [
    "Wadec.c02_u64",
    "Wadec.c02_u64_closed"
   ],
   "note": ""
  },
  {
   "property": "C03",
   "status": "proved",
   "theorems": [
    "Wadec.c03_i32",
    "Wadec.c03_i32_closed"
   ],
   "note": ""
  },
  {
   "property": "C04",
   "status": "proved",
   "theorems": [
    "Wadec.c04_i64",
    "Wadec.c04_i64_closed"
   ],
   "note": ""
  },
  {
   "property": "C05",
   "status": "proved",
   "theorems": [
    "Wadec.c05_s33",
    "Wadec.c05_s33_closed",
    "Wadec.c05_s33_fits"
   ],
   "note": ""
  },
  {
   "property": "C06",
   "status": "proved",
   "theorems": [
    "Wadec.c06_u32",
    "Wadec.c06_u64",
    "Wadec.c06_i32",
    "Wadec.c06_i64",
    "Wadec.c06_s33"
   ],
   "note": ""
  },
  {
   "property": "C07",
   "status": "proved",
   "theorems": [
    "Wadec.c07_u32",
    "Wadec.c07_u64",
    "Wadec.c07_i32",
    "Wadec.c07_i64",
    "Wadec.c07_s33",
    "Wadec.c07_u32_decodes",
    "Wadec.c07_u64_decodes",
    "Wadec.c07_i32_decodes",
    "Wadec.c07_i64_decodes",
    "Wadec.c07_s33_decodes"
   ],
   "note": ""
  },
  {
   "property": "C08",
   "status": "proved",
   "theorems": [
    "Wadec.c08_f32",
    "Wadec.c08_f64",
    "Wadec.c08_const_instr",
    "Wadec.c08_le_injective32",
    "Wadec.c08_le_injective64"
   ],
   "note": ""
  },
  {
   "property": "C09",
   "status": "proved",
   "theorems": [
    "Wadec.c09_name",
    "Wadec.c09_invalid"
   ],
   "note": ""
  },
  {
   "property": "C10",
   "status": "proved",
   "theorems": [
    "Wadec.c10_list_ok",
    "Wadec.c10_list_err",
    "Wadec.c10_list_grammar",
    "Wadec.c10_byteVec"
   ],
   "note": ""
  },
  {
   "property": "C11",
   "status": "proved",
   "theorems": [
    "Wadec.c11_valtype",
    "Wadec.c11_reftype",
    "Wadec.c11_heaptype",
    "Wadec.c11_absheaptype"
   ],
   "note": ""
  },
  {
   "property": "C12",
   "status": "proved",
   "theorems": [
    "Wadec.c12_rectype",
    "Wadec.c12_subtype",
    "Wadec.c12_comptype",
    "Wadec.c12_fieldtype",
    "Wadec.c12_resulttype"
   ],
   "note": ""
  },
  {
   "property": "C13",
   "status": "proved",
   "theorems": [
    "Wadec.c13_limits",
    "Wadec.c13_tabletype",
    "Wadec.c13_memtype",
    "Wadec.c13_globaltype",
    "Wadec.c13_tagtype",
    "Wadec.c13_externtype",
    "Wadec.c13_limits_flag"
   ],
   "note": ""
  },
  {
   "property": "C14",
   "status": "proved",
   "theorems": [
    "Wadec.c14_blocktype"
   ],
   "note": ""
  },
  {
   "property": "C15",
   "status": "proved",
   "theorems": [
    "Wadec.c15_expr",
    "Wadec.c15_unassigned_byte",
    "Wadec.c15_unassigned_fb",
    "Wadec.c15_unassigned_fc",
    "Wadec.c15_unassigned_fd",
    "Wadec.c15_unassigned_all"
   ],
   "note": ""
  },
  {
   "property": "C16",
   "status": "proved",
   "theorems": [
    "Wadec.c16_misplaced_else",
    "Wadec.c16_toplevel_else",
    "Wadec.c16_missing_end"
   ],
   "note": ""
  },
  {
   "property": "C17",
   "status": "proved",
   "theorems": [
    "Wadec.c17_sound",
    "Wadec.c17_source"
   ],
   "note": ""
  },
  {
   "property": "C18",
   "status": "proved",
   "theorems": [
    "Wadec.c18_complete",
    "Wadec.c18_bytes",
    "Wadec.c18_source"
   ],
   "note": ""
  },
  {
   "property": "C19",
   "status": "proved",
   "theorems": [
    "Wadec.c19_order",
    "Wadec.c19_duplicate",
    "Wadec.c19_outOfOrder"
   ],
   "note": ""
  },
  {
   "property": "C20",
   "status": "proved",
   "theorems": [
    "Wadec.c20_parts",
    "Wadec.c20_length"
   ],
   "note": ""
  },
  {
   "property": "C21",
   "status": "proved",
   "theorems": [
    "Wadec.c21_trailing",
    "Wadec.c21_garbage"
   ],
   "note": ""
  },
  {
   "property": "C22",
   "status": "proved",
   "theorems": [
    "Wadec.c22_custom",
    "Wadec.c22_insert"
   ],
   "note": ""
  },
  {
   "property": "C23",
   "status": "proved",
   "theorems": [
    "Wadec.c23_custom"
   ],
   "note": ""
  },
  {
   "property": "C24",
   "status": "proved",
   "theorems": [
    "Wadec.c24_functions",
    "Wadec.c24_mismatch"
   ],
   "note": ""
  },
  {
   "property": "C25",
   "status": "proved",
   "theorems": [
    "Wadec.c25_module",
    "Wadec.c25_code",
    "Wadec.c25_bound"
   ],
   "note": ""
  },
  {
   "property": "C26",
   "status": "proved",
   "theorems": [
    "Wadec.c26_short",
    "Wadec.c26_mismatch",
    "Wadec.c26_long"
   ],
   "note": ""
  },
  {
   "property": "C27",
   "status": "proved",
   "theorems": [
    "Wadec.c27_count",
    "Wadec.c27_mismatch",
    "Wadec.c27_missing"
   ],
   "note": ""
  },
  {
   "property": "C28",
   "status": "proved",
   "theorems": [
    "Wadec.c28_required",
    "Wadec.c28_reject"
   ],
   "note": ""
  },
  {
   "property": "C29",
   "status": "proved",
   "theorems": [
    "Wadec.c29_total",
    "Wadec.c29_no_panic",
    "Wadec.c29_source"
   ],
   "note": ""
  },
  {
   "property": "C30",
   "status": "proved",
   "theorems": [
    "Wadec.c30_terminates"
   ],
   "note": ""
  },
  {
   "property": "C31",
   "status": "proved",
   "theorems": [
    "Wadec.c31_fragmentation",
    "Wadec.c31_source"
   ],
   "note": ""
  },
  {
   "property": "C32",
   "status": "proved",
   "theorems": [
    "Wadec.c32_fail"
   ],
   "note": ""
  },
  {
   "property": "C33",
   "status": "proved",
   "theorems": [
    "Wadec.c33_reported",
    "Wadec.c33_eof"
   ],
   "note": ""
  },
  {
   "property": "C34",
   "status": "proved",
   "theorems": [
    "Wadec.c34_boundary",
    "Wadec.c34_truncated"
   ],
   "note": ""
  },
  {
   "property": "C35",
   "status": "proved",
   "theorems": [
    "Wadec.c35_list",
    "Wadec.c35_values",
    "Wadec.c35_types",
    "Wadec.c35_instr",
    "Wadec.c35_expr",
    "Wadec.c35_entries",
    "Wadec.c35_contents",
    "Wadec.c35_section",
    "Wadec.c35_module"
   ],
   "note": ""
  },
  {
   "property": "C36",
   "status": "proved",
   "theorems": [
    "Wadec.c36_encodes",
    "Wadec.c36_roundtrip",
    "Wadec.c36_exact",
    "Wadec.c36_writable",
    "Wadec.c36_reencode"
   ],
   "note": ""
  },
  {
   "property": "C37",
   "status": "proved",
   "theorems": [
    "Wadec.c37_elem",
    "Wadec.c37_bitfield"
   ],
   "note": ""
  },
  {
   "property": "C38",
   "status": "proved",
   "theorems": [
    "Wadec.c38_table",
    "Wadec.c38_global",
    "Wadec.c38_data",
    "Wadec.c38_import",
    "Wadec.c38_export",
    "Wadec.c38_table_default"
   ],
   "note": ""
  },
  {
   "property": "C39",
   "status": "proved",
   "theorems": [
    "Wadec.c39_accepted",
    "Wadec.c39_short",
    "Wadec.c39_unexpected",
    "Wadec.c39_iff"
   ],
   "note": ""
  },
  {
   "property": "C40",
   "status": "proved",
   "theorems": [
    "Wadec.c40_size"
   ],
   "note": ""
  },
  {
   "property": "C41",
   "status": "proved",
   "theorems": [
    "Wadec.c41_module",
    "Wadec.c41_expr",
    "Wadec.c41_storage"
   ],
   "note": ""
  },
  {
   "property": "C42",
   "status": "proved",
   "theorems": [
    "Wadec.c42_memarg",
    "Wadec.c42_flags",
    "Wadec.c42_components"
   ],
   "note": ""
  },
  {
   "property": "C43",
   "status": "proved",
   "theorems": [
    "Wadec.c43_linear",
    "Wadec.c43_locals",
    "Wadec.c43_amplification",
    "Wadec.c43_tight"
   ],
   "note": ""
  },
  {
   "property": "C44",
   "status": "proved",
   "theorems": [
    "Wadec.c44_bounded",
    "Wadec.c44_bytes",
    "Wadec.c44_list",
    "Wadec.c44_byteVector",
    "Wadec.c44_section",
    "Wadec.c44_unbounded"
   ],
   "note": ""
  },
  {
   "property": "C45",
   "status": "proved",
   "theorems": [
    "Wadec.c45_bounded",
    "Wadec.c45_expr",
    "Wadec.c45_deep_expr",
    "Wadec.c45_deep_module",
    "Wadec.c45_recursion"
   ],
   "note": ""
  },
  {
   "property": "C46",
   "status": "proved",
   "theorems": [
    "Wadec.c46_status",
    "Wadec.c46_success",
    "Wadec.c46_open",
    "Wadec.c46_failure",
    "Wadec.c46_stderr",
    "Wadec.c46_source"
   ],
   "note": ""
  },
  {
   "property": "C47",
   "status": "proved",
   "theorems": [
    "Wadec.c47_iff",
    "Wadec.c47_refl",
    "Wadec.c47_decode",
    "Wadec.c47_symm",
    "Wadec.c47_trans"
   ],
   "note": ""
  },
  {
   "property": "C48",
   "status": "proved",
   "theorems": [
    "Wadec.c48_chain",
    "Wadec.c48_reader",
    "Wadec.c48_cut"
   ],
   "note": ""
  },
  {
   "property": "C49",
   "status": "proved",
   "theorems": [
    "Wadec.c49_stable"
   ],
   "note": ""
  },
  {
   "property": "C50",
   "status": "proved",
   "theorems": [
    "Wadec.c50_section",
    "Wadec.c50_custom"
   ],
   "note": ""
  },
  {
   "property": "C51",
   "status": "proved",
   "theorems": [
    "Wadec.c51_entry",
    "Wadec.c51_count"
   ],
   "note": ""
  },
  {
   "property": "C52",
   "status": "proved",
   "theorems": [
    "Wadec.c52_id",
    "Wadec.c52_size",
    "Wadec.c52_read",
    "Wadec.c52_never"
   ],
   "note": ""
  },
  {
   "property": "C53",
   "status": "proved",
   "theorems": [
    "Wadec.c53_isolated"
   ],
   "note": ""
  },
  {
   "property": "C54",
   "status": "proved",
   "theorems": [
    "Wadec.c54_took",
    "Wadec.c54_section",
    "Wadec.c54_preamble",
    "Wadec.c54_header",
    "Wadec.c54_end",
    "Wadec.c54_ok"
   ],
   "note": ""
  },
  {
   "property": "C55",
   "status": "proved",
   "theorems": [
    "Wadec.c55_module",
    "Wadec.c55_bytes",
    "Wadec.c55_one",
    "Wadec.c55_failing",
    "Wadec.c55_u32",
    "Wadec.c55_u64",
    "Wadec.c55_i32",
    "Wadec.c55_i64",
    "Wadec.c55_s33",
    "Wadec.c55_name",
    "Wadec.c55_valtype",
    "Wadec.c55_rectype",
    "Wadec.c55_externtype",
    "Wadec.c55_expr",
    "Wadec.c55_import",
    "Wadec.c55_export",
    "Wadec.c55_table",
    "Wadec.c55_global",
    "Wadec.c55_elem",
    "Wadec.c55_data",
    "Wadec.c55_code",
    "Wadec.c55_header",
    "Wadec.c55_source"
   ],
   "note": ""
  },
  {
   "property": "C56",
   "status": "proved",
   "theorems": [
    "Wadec.c56_calls",
    "Wadec.c56_deterministic",
    "Wadec.c56_no_panic",
    "Wadec.c56_ok",
    "Wadec.c56_err",
    "Wadec.c56_trace",
    "Wadec.c56_content",
    "Wadec.c56_terminates",
    "Wadec.c56_interrupted",
    "Wadec.c56_source"
   ],
   "note": ""
  },
  {
   "property": "C57",
   "status": "proved",
   "theorems": [
    "Wadec.c57_last",
    "Wadec.c57_ok",
    "Wadec.c57_count",
    "Wadec.c57_terminates",
    "Wadec.c57_content"
   ],
   "note": ""
  },
  {
   "property": "C58",
   "status": "proved",
   "theorems": [
    "Wadec.c58_byte",
    "Wadec.c58_limits",
    "Wadec.c58_compType",
    "Wadec.c58_tagType",
    "Wadec.c58_externType",
    "Wadec.c58_catch",
    "Wadec.c58_elemKind",
    "Wadec.c58_table",
    "Wadec.c58_globalType",
    "Wadec.c58_fieldType",
    "Wadec.c58_export",
    "Wadec.c58_section",
    "Wadec.c58_castop",
    "Wadec.c58_absHeapType",
    "Wadec.c58_refType",
    "Wadec.c58_opcode",
    "Wadec.c58_sub_opcode",
    "Wadec.c58_preamble"
   ],
   "note": ""
  },
  {
   "property": "C59",
   "status": "proved",
   "theorems": [
    "Wadec.c59_section_size",
    "Wadec.c59_code_size",
    "Wadec.c59_locals",
    "Wadec.c59_data_flag",
    "Wadec.c59_elem_flag",
    "Wadec.c59_memarg",
    "Wadec.c59_utf8",
    "Wadec.c59_data_count",
    "Wadec.c59_positions",
    "Wadec.c59_inner_positions"
   ],
   "note": ""
  },
  {
   "property": "C60",
   "status": "proved",
   "theorems": [
    "Wadec.c60_shown",
    "Wadec.c60_hidden",
    "Wadec.c60_reader",
    "Wadec.c60_root",
    "Wadec.c60_exact"
   ],
   "note": ""
  },
  {
   "property": "C61",
   "status": "proved",
   "theorems": [
    "Wadec.c61_streams",
    "Wadec.c61_status",
    "Wadec.c61_quiet",
    "Wadec.c61_report"
   ],
   "note": ""
  },
  {
   "property": "C62",
   "status": "proved",
   "theorems": [
    "Wadec.c62_text",
    "Wadec.c62_verbose",
    "Wadec.c62_exact"
   ],
   "note": ""
  },
  {
   "property": "C63",
   "status": "proved",
   "theorems": [
    "Wadec.c63_text",
    "Wadec.c63_verbose"
   ],
   "note": ""
  },
  {
   "property": "C64",
   "status": "proved",
   "theorems": [
    "Wadec.c64_module",
    "Wadec.c64_error",
    "Wadec.c64_names"
   ],
   "note": ""
  },
  {
   "property": "C65",
   "status": "proved",
   "theorems": [
    "Wadec.c65_accepted",
    "Wadec.c65_any",
    "Wadec.c65_bytes",
    "Wadec.c65_tight"
   ],
   "note": ""
  },
  {
   "property": "C66",
   "status": "proved",
   "theorems": [
    "Wadec.c66_limit",
    "Wadec.c66_expr",
    "Wadec.c66_module",
    "Wadec.c66_expr_needed",
    "Wadec.c66_module_needed"
   ],
   "note": ""
  },
  {
   "property": "C67",
   "status": "proved",
   "theorems": [
    "Wadec.c67_count",
    "Wadec.c67_tight",
    "Wadec.c67_line",
    "Wadec.c67_report",
    "Wadec.c67_report_length",
    "Wadec.c67_recover",
    "Wadec.c67_preamble"
   ],
   "note": ""
  },
  {
   "property": "C68",
   "status": "proved",
   "theorems": [
    "Wadec.c68_section",
    "Wadec.c68_custom",
    "Wadec.c68_entry",
    "Wadec.c68_one"
   ],
   "note": ""
  },
  {
   "property": "C69",
   "status": "proved",
   "theorems": [
    "Wadec.c69_same",
    "Wadec.c69_linear",
    "Wadec.c69_atLeast",
    "Wadec.c69_priced",
    "Wadec.c69_pushes",
    "Wadec.c69_bytes",
    "Wadec.c69_module",
    "Wadec.c69_amplification"
   ],
   "note": ""
  },
  {
   "property": "C70",
   "status": "proved",
   "theorems": [
    "Wadec.c70_core",
    "Wadec.c70_errors",
    "Wadec.c70_list",
    "Wadec.c70_types",
    "Wadec.c70_utf8",
    "Wadec.c70_operations",
    "Wadec.c70_instructions",
    "Wadec.c70_constants",
    "Wadec.c70_strings",
    "Wadec.c70_values",
    "Wadec.c70_containers"
   ],
   "note": ""
  },
  {
   "property": "C71",
   "status": "proved",
   "theorems": [
    "Wadec.c71_module",
    "Wadec.c71_error",
    "Wadec.c71_compact",
    "Wadec.c71_compact_error",
    "Wadec.c71_verbose",
    "Wadec.c71_report"
   ],
   "note": ""
  },
  {
   "property": "C72",
   "status": "proved",
   "theorems": [
    "Wadec.c72_expr",
    "Wadec.c72_module",
    "Wadec.c72_expr_any",
    "Wadec.c72_module_any",
    "Wadec.c72_search",
    "Wadec.c72_search_needed"
   ],
   "note": ""
  },
  {
   "property": "C73",
   "status": "proved",
   "theorems": [
    "Wadec.c73_length",
    "Wadec.c73_accepted",
    "Wadec.c73_minimal",
    "Wadec.c73_fixed",
    "Wadec.c73_canonical",
    "Wadec.c73_parts"
   ],
   "note": ""
  },
  {
   "property": "C74",
   "status": "proved",
   "theorems": [
    "Wadec.c74_entries",
    "Wadec.c74_funcs",
    "Wadec.c74_datas",
    "Wadec.c74_patch_code",
    "Wadec.c74_start",
    "Wadec.c74_custom"
   ],
   "note": ""
  },
  {
   "property": "C75",
   "status": "proved",
   "theorems": [
    "Wadec.c75_take",
    "Wadec.c75_short",
    "Wadec.c75_archive",
    "Wadec.c75_peek"
   ],
   "note": ""
  },
  {
   "property": "C76",
   "status": "proved",
   "theorems": [
    "Wadec.c76_sections",
    "Wadec.c76_datas",
    "Wadec.c76_alone",
    "Wadec.c76_functions"
   ],
   "note": ""
  },
  {
   "property": "C77",
   "status": "proved",
   "theorems": [
    "Wadec.c77_limit",
    "Wadec.c77_wide",
    "Wadec.c77_wide64",
    "Wadec.c77_total",
    "Wadec.c77_accepted",
    "Wadec.c77_bytes",
    "Wadec.c77_needs",
    "Wadec.c77_locals",
    "Wadec.c77_crowded",
    "Wadec.c77_many",
    "Wadec.c77_exact",
    "Wadec.c77_list",
    "Wadec.c77_byteVector",
    "Wadec.c77_section",
    "Wadec.c77_narrow"
   ],
   "note": ""
  },
  {
   "property": "C78",
   "status": "proved",
   "theorems": [
    "Wadec.c78_upper",
    "Wadec.c78_bytes",
    "Wadec.c78_compact",
    "Wadec.c78_nesting",
    "Wadec.c78_quadratic",
    "Wadec.c78_locals",
    "Wadec.c78_amplified"
   ],
   "note": ""
  },
  {
   "property": "C79",
   "status": "proved",
   "theorems": [
    "Wadec.c79_plain",
    "Wadec.c79_verbose",
    "Wadec.c79_name",
    "Wadec.c79_linear",
    "Wadec.c79_long",
    "Wadec.c79_grows"
   ],
   "note": ""
  },
  {
   "property": "C80",
   "status": "proved",
   "theorems": [
    "Wadec.c80_prompt",
    "Wadec.c80_settled",
    "Wadec.c80_amount",
    "Wadec.c80_same",
    "Wadec.c80_test",
    "Wadec.c80_valid",
    "Wadec.c80_returns",
    "Wadec.c80_hangs"
   ],
   "note": ""
  },
  {
   "property": "C81",
   "status": "proved",
   "theorems": [
    "Wadec.c81_default",
    "Wadec.c81_verdict",
    "Wadec.c81_content",
    "Wadec.c81_fills",
    "Wadec.c81_slice",
    "Wadec.c81_bytes"
   ],
   "note": ""
  },
  {
   "property": "C82",
   "status": "proved",
   "theorems": [
    "Wadec.c82_buffered",
    "Wadec.c82_started",
    "Wadec.c82_ahead",
    "Wadec.c82_kept",
    "Wadec.c82_cli",
    "Wadec.c82_cursor",
    "Wadec.c82_deque"
   ],
   "note": ""
  },
  {
   "property": "C83",
   "status": "proved",
   "theorems": [
    "Wadec.c83_instr",
    "Wadec.c83_module",
    "Wadec.c83_bytes",
    "Wadec.c83_needed",
    "Wadec.c83_exactly",
    "Wadec.c83_exactly_module",
    "Wadec.c83_lengths"
   ],
   "note": ""
  },
  {
   "property": "C84",
   "status": "proved",
   "theorems": [
    "Wadec.c84_module",
    "Wadec.c84_bytes",
    "Wadec.c84_success"
   ],
   "note": ""
  },
  {
   "property": "C85",
   "status": "proved",
   "theorems": [
    "Wadec.c85_instr",
    "Wadec.c85_types",
    "Wadec.c85_eq",
    "Wadec.c85_debug",
    "Wadec.c85_keys"
   ],
   "note": ""
  },
  {
   "property": "C86",
   "status": "proved",
   "theorems": [
    "Wadec.c86_u32",
    "Wadec.c86_u64",
    "Wadec.c86_i64",
    "Wadec.c86_i32",
    "Wadec.c86_s33",
    "Wadec.c86_i32_range",
    "Wadec.c86_s33_range",
    "Wadec.c86_u32_range",
    "Wadec.c86_shortest"
   ],
   "note": ""
  },
  {
   "property": "C87",
   "status": "proved",
   "theorems": [
    "Wadec.c87_default",
    "Wadec.c87_verdict",
    "Wadec.c87_content",
    "Wadec.c87_read",
    "Wadec.c87_closed",
    "Wadec.c87_buffered",
    "Wadec.c87_cursor",
    "Wadec.c87_deque"
   ],
   "note": ""
  }
 ]
}