import Verif.Check.Base

/-! Generated by tools/gen_tests.py from /repo/tests/error_types.rs: the project's own tests, run on the model by the
kernel.  These are not claims; they are checks that the model is a model of this code. -/

namespace Wadec.Check
open Wadec

set_option maxRecDepth 100000

/-- tests/error_types.rs:11 `type_idx_error_for_overlong_function_index`, input tests/fixtures/malformed/function_section_typeidx_overlong.wasm -/
example : onErr [0, 97, 115, 109, 1, 0, 0, 0, 1, 1, 0, 3, 6, 1, 128, 128, 128, 128, 128]
    (fun e =>
    (match e with
      | (.DecodeFunctionSection (.DecodeList (.ParseElement (position := position) (source := (.mk
          .RepresentationTooLong))))) => same position 0
      | _ => false)) = true := by decide +kernel

/-- tests/error_types.rs:36 `decode_u32_error_io_for_section_size`, input tests/fixtures/malformed/section_header_size_truncated.wasm -/
example : onErr [0, 97, 115, 109, 1, 0, 0, 0, 1]
    (fun e =>
    (match e with
      | (.DecodeSectionHeader (.DecodeSectionSize u32_err)) => (match u32_err with
        | (.Io io_err) => same io_err IoError.unexpectedEof
        | _ => false)
      | _ => false)) = true := by decide +kernel

/-- tests/error_types.rs:59 `decode_i32_error_too_large`, input tests/fixtures/malformed/i32_const_too_large.wasm -/
example : onErr [0, 97, 115, 109, 1, 0, 0, 0, 1, 4, 1, 96, 0, 0, 3, 2, 1, 0, 10, 10, 1, 8, 0, 65, 128, 128, 128,
        128, 8, 11]
    (fun e =>
    (match e with
      | (.DecodeCodeSection (.DecodeList (.ParseElement (position := position) (source :=
          (.DecodeFunctionBody (.ParseInstruction (.Numeric (.DecodeI32 i32_err)))))))) => same
          position 0 && (match i32_err with
        | .TooLarge => true
        | _ => false)
      | _ => false)) = true := by decide +kernel

/-- tests/error_types.rs:86 `decode_i32_error_representation_too_long`, input tests/fixtures/malformed/i32_const_representation_too_long.wasm -/
example : onErr [0, 97, 115, 109, 1, 0, 0, 0, 1, 4, 1, 96, 0, 0, 3, 2, 1, 0, 10, 10, 1, 8, 0, 65, 128, 128, 128,
        128, 128, 11]
    (fun e =>
    (match e with
      | (.DecodeCodeSection (.DecodeList (.ParseElement (position := position) (source :=
          (.DecodeFunctionBody (.ParseInstruction (.Numeric (.DecodeI32 i32_err)))))))) => same
          position 0 && (match i32_err with
        | .RepresentationTooLong => true
        | _ => false)
      | _ => false)) = true := by decide +kernel

/-- tests/error_types.rs:114 `decode_i32_error_io`, input tests/fixtures/malformed/i32_const_truncated.wasm -/
example : onErr [0, 97, 115, 109, 1, 0, 0, 0, 1, 4, 1, 96, 0, 0, 3, 2, 1, 0, 10, 4, 1, 2, 0, 65]
    (fun e =>
    (match e with
      | (.DecodeCodeSection (.DecodeList (.ParseElement (position := position) (source :=
          (.DecodeFunctionBody (.ParseInstruction (.Numeric (.DecodeI32 i32_err)))))))) => same
          position 0 && (match i32_err with
        | (.Io io_err) => same io_err IoError.unexpectedEof
        | _ => false)
      | _ => false)) = true := by decide +kernel

/-- tests/error_types.rs:146 `decode_i64_error_representation_too_long`, input tests/fixtures/malformed/i64_const_representation_too_long.wasm -/
example : onErr [0, 97, 115, 109, 1, 0, 0, 0, 1, 4, 1, 96, 0, 0, 3, 2, 1, 0, 10, 15, 1, 13, 0, 66, 128, 128, 128,
        128, 128, 128, 128, 128, 128, 128, 11]
    (fun e =>
    (match e with
      | (.DecodeCodeSection (.DecodeList (.ParseElement (position := position) (source :=
          (.DecodeFunctionBody (.ParseInstruction (.Numeric (.DecodeI64 i64_err)))))))) => same
          position 0 && (match i64_err with
        | .RepresentationTooLong => true
        | _ => false)
      | _ => false)) = true := by decide +kernel

/-- tests/error_types.rs:174 `decode_i64_error_incorrect_sign_extension`, input tests/fixtures/malformed/i64_const_incorrect_sign_extension.wasm -/
example : onErr [0, 97, 115, 109, 1, 0, 0, 0, 1, 4, 1, 96, 0, 0, 3, 2, 1, 0, 10, 15, 1, 13, 0, 66, 128, 128, 128,
        128, 128, 128, 128, 128, 128, 1, 11]
    (fun e =>
    (match e with
      | (.DecodeCodeSection (.DecodeList (.ParseElement (position := position) (source :=
          (.DecodeFunctionBody (.ParseInstruction (.Numeric (.DecodeI64 i64_err)))))))) => same
          position 0 && (match i64_err with
        | .IncorrectSignExtension => true
        | _ => false)
      | _ => false)) = true := by decide +kernel

/-- tests/error_types.rs:202 `decode_i64_error_io`, input tests/fixtures/malformed/i64_const_truncated.wasm -/
example : onErr [0, 97, 115, 109, 1, 0, 0, 0, 1, 4, 1, 96, 0, 0, 3, 2, 1, 0, 10, 4, 1, 2, 0, 66]
    (fun e =>
    (match e with
      | (.DecodeCodeSection (.DecodeList (.ParseElement (position := position) (source :=
          (.DecodeFunctionBody (.ParseInstruction (.Numeric (.DecodeI64 i64_err)))))))) => same
          position 0 && (match i64_err with
        | (.Io io_err) => same io_err IoError.unexpectedEof
        | _ => false)
      | _ => false)) = true := by decide +kernel

/-- tests/error_types.rs:234 `parse_error_read_opcode`, input tests/fixtures/malformed/code_body_missing_opcode.wasm -/
example : onErr [0, 97, 115, 109, 1, 0, 0, 0, 1, 4, 1, 96, 0, 0, 3, 2, 1, 0, 10, 4, 1, 2, 0, 0]
    (fun e =>
    (match e with
      | (.DecodeCodeSection (.DecodeList (.ParseElement (position := position) (source :=
          (.DecodeFunctionBody (.ParseInstruction (.ReadOpcode io_err))))))) => same position 0 &&
          same io_err IoError.unexpectedEof
      | _ => false)) = true := by decide +kernel

/-- tests/error_types.rs:261 `parse_error_control`, input tests/fixtures/malformed/br_labelidx_overlong.wasm -/
example : onErr [0, 97, 115, 109, 1, 0, 0, 0, 1, 4, 1, 96, 0, 0, 3, 2, 1, 0, 10, 10, 1, 8, 0, 12, 128, 128, 128,
        128, 128, 11]
    (fun e =>
    (match e with
      | (.DecodeCodeSection (.DecodeList (.ParseElement (position := position) (source :=
          (.DecodeFunctionBody (.ParseInstruction (.Control (.LabelIdx (.mk
          .RepresentationTooLong))))))))) => same position 0
      | _ => false)) = true := by decide +kernel

/-- tests/error_types.rs:289 `parse_error_reference`, input tests/fixtures/malformed/ref_null_invalid_marker.wasm -/
example : onErr [0, 97, 115, 109, 1, 0, 0, 0, 1, 4, 1, 96, 0, 0, 3, 2, 1, 0, 10, 6, 1, 4, 0, 208, 127, 11]
    (fun e =>
    (match e with
      | (.DecodeCodeSection (.DecodeList (.ParseElement (position := position) (source :=
          (.DecodeFunctionBody (.ParseInstruction (.Reference (.HeapType (.NegativeTypeIndex
          n))))))))) => same position 0 && same n (-1)
      | _ => false)) = true := by decide +kernel

/-- tests/error_types.rs:318 `parse_error_reference_invalid_subopcode`, input tests/fixtures/malformed/ref_test_invalid_subopcode.wasm -/
example : onErr [0, 97, 115, 109, 1, 0, 0, 0, 1, 4, 1, 96, 0, 0, 3, 2, 1, 0, 10, 6, 1, 4, 0, 251, 31, 11]
    (fun e =>
    (match e with
      | (.DecodeCodeSection (.DecodeList (.ParseElement (position := position) (source :=
          (.DecodeFunctionBody (.ParseInstruction (.InvalidMarkerByteAfterFB op))))))) => same
          position 0 && same op 31
      | _ => false)) = true := by decide +kernel

/-- tests/error_types.rs:345 `parse_error_control_invalid_cast_nullability_marker`, input tests/fixtures/malformed/br_on_cast_invalid_nullability.wasm -/
example : onErr [0, 97, 115, 109, 1, 0, 0, 0, 1, 4, 1, 96, 0, 0, 3, 2, 1, 0, 10, 7, 1, 5, 0, 251, 24, 4, 11]
    (fun e =>
    (match e with
      | (.DecodeCodeSection (.DecodeList (.ParseElement (position := position) (source :=
          (.DecodeFunctionBody (.ParseInstruction (.Control (.InvalidCastNullabilityMarker
          marker)))))))) => same position 0 && same marker 4
      | _ => false)) = true := by decide +kernel

/-- tests/error_types.rs:372 `parse_error_reference_ref_test_negative_heaptype`, input tests/fixtures/malformed/ref_test_negative_heaptype.wasm -/
example : onErr [0, 97, 115, 109, 1, 0, 0, 0, 1, 4, 1, 96, 0, 0, 3, 2, 1, 0, 10, 7, 1, 5, 0, 251, 20, 127, 11]
    (fun e =>
    (match e with
      | (.DecodeCodeSection (.DecodeList (.ParseElement (position := position) (source :=
          (.DecodeFunctionBody (.ParseInstruction (.Reference (.HeapType (.NegativeTypeIndex
          n))))))))) => same position 0 && same n (-1)
      | _ => false)) = true := by decide +kernel

/-- tests/error_types.rs:401 `parse_error_parametric`, input tests/fixtures/malformed/select_invalid_valtype.wasm -/
example : onErr [0, 97, 115, 109, 1, 0, 0, 0, 1, 4, 1, 96, 0, 0, 3, 2, 1, 0, 10, 7, 1, 5, 0, 28, 1, 255, 11]
    (fun e =>
    (match e with
      | (.DecodeCodeSection (.DecodeList (.ParseElement (position := position) (source :=
          (.DecodeFunctionBody (.ParseInstruction (.Parametric (.DecodeList (.ParseElement
          (position := vec_pos) (source := (.DecodeRefType (.InvalidMarkerByte (.InvalidMarkerByte
          err))))))))))))) => same position 0 && same vec_pos 0 && same err (.mk 255)
      | _ => false)) = true := by decide +kernel

/-- tests/error_types.rs:439 `parse_error_variable`, input tests/fixtures/malformed/global_set_truncated.wasm -/
example : onErr [0, 97, 115, 109, 1, 0, 0, 0, 1, 4, 1, 96, 0, 0, 3, 2, 1, 0, 10, 4, 1, 2, 0, 36]
    (fun e =>
    (match e with
      | (.DecodeCodeSection (.DecodeList (.ParseElement (position := position) (source :=
          (.DecodeFunctionBody (.ParseInstruction (.Variable (.GlobalIdx (.mk (.Io
          io_err)))))))))) => same position 0 && same io_err IoError.unexpectedEof
      | _ => false)) = true := by decide +kernel

/-- tests/error_types.rs:468 `parse_error_table`, input tests/fixtures/malformed/table_get_tableidx_overlong.wasm -/
example : onErr [0, 97, 115, 109, 1, 0, 0, 0, 1, 4, 1, 96, 0, 0, 3, 2, 1, 0, 10, 10, 1, 8, 0, 37, 128, 128, 128,
        128, 128, 11]
    (fun e =>
    (match e with
      | (.DecodeCodeSection (.DecodeList (.ParseElement (position := position) (source :=
          (.DecodeFunctionBody (.ParseInstruction (.Table (.TableIdx (.mk
          .RepresentationTooLong))))))))) => same position 0
      | _ => false)) = true := by decide +kernel

/-- tests/error_types.rs:496 `parse_error_numeric`, input tests/fixtures/malformed/f32_const_truncated.wasm -/
example : onErr [0, 97, 115, 109, 1, 0, 0, 0, 1, 4, 1, 96, 0, 0, 3, 2, 1, 0, 10, 6, 1, 4, 0, 67, 0, 0]
    (fun e =>
    (match e with
      | (.DecodeCodeSection (.DecodeList (.ParseElement (position := position) (source :=
          (.DecodeFunctionBody (.ParseInstruction (.Numeric (.DecodeF32 (.ReadPayload
          io_err))))))))) => same position 0 && same io_err IoError.unexpectedEof
      | _ => false)) = true := by decide +kernel

/-- tests/error_types.rs:525 `parse_error_vector`, input tests/fixtures/malformed/vector_invalid_opcode.wasm -/
example : onErr [0, 97, 115, 109, 1, 0, 0, 0, 1, 4, 1, 96, 0, 0, 3, 2, 1, 0, 10, 8, 1, 6, 0, 253, 255, 255, 3, 11]
    (fun e =>
    (match e with
      | (.DecodeCodeSection (.DecodeList (.ParseElement (position := position) (source :=
          (.DecodeFunctionBody (.ParseInstruction (.Vector (.InvalidOpcode op)))))))) => same
          position 0 && same op 65535
      | _ => false)) = true := by decide +kernel

/-- tests/error_types.rs:552 `parse_error_invalid_opcode`, input tests/fixtures/malformed/invalid_opcode_ff.wasm -/
example : onErr [0, 97, 115, 109, 1, 0, 0, 0, 1, 4, 1, 96, 0, 0, 3, 2, 1, 0, 10, 4, 1, 2, 0, 255]
    (fun e =>
    (match e with
      | (.DecodeCodeSection (.DecodeList (.ParseElement (position := position) (source :=
          (.DecodeFunctionBody (.ParseInstruction (.InvalidOpcode 255))))))) => same position 0
      | _ => false)) = true := by decide +kernel

/-- tests/error_types.rs:578 `parse_error_invalid_marker_after_fc`, input tests/fixtures/malformed/fc_invalid_marker.wasm -/
example : onErr [0, 97, 115, 109, 1, 0, 0, 0, 1, 4, 1, 96, 0, 0, 3, 2, 1, 0, 10, 7, 1, 5, 0, 252, 255, 1, 11]
    (fun e =>
    (match e with
      | (.DecodeCodeSection (.DecodeList (.ParseElement (position := position) (source :=
          (.DecodeFunctionBody (.ParseInstruction (.InvalidMarkerByteAfterFC op))))))) => same
          position 0 && same op 255
      | _ => false)) = true := by decide +kernel

/-- tests/error_types.rs:605 `control_error_decode_label_idx_vector`, input tests/fixtures/malformed/br_table_labelidxvector_overlong.wasm -/
example : onErr [0, 97, 115, 109, 1, 0, 0, 0, 1, 4, 1, 96, 0, 0, 3, 2, 1, 0, 10, 12, 1, 10, 0, 14, 1, 128, 128,
        128, 128, 128, 0, 11]
    (fun e =>
    (match e with
      | (.DecodeCodeSection (.DecodeList (.ParseElement (position := position) (source :=
          (.DecodeFunctionBody (.ParseInstruction (.Control (.DecodeLabelIdxVector (.ParseElement
          (position := vec_pos) (source := (.mk .RepresentationTooLong))))))))))) => same position
          0 && same vec_pos 0
      | _ => false)) = true := by decide +kernel

/-- tests/error_types.rs:639 `control_error_decode_catch_invalid_marker`, input tests/fixtures/malformed/try_table_invalid_catch_marker.wasm -/
example : onErr [0, 97, 115, 109, 1, 0, 0, 0, 1, 4, 1, 96, 0, 0, 3, 2, 1, 0, 10, 9, 1, 7, 0, 31, 64, 1, 4, 11, 11]
    (fun e =>
    (match e with
      | (.DecodeCodeSection (.DecodeList (.ParseElement (position := position) (source :=
          (.DecodeFunctionBody (.ParseInstruction (.Control (.DecodeCatchListError (.ParseElement
          (position := catch_pos) (source := (.InvalidMarkerByte marker))))))))))) => same
          position 0 && same catch_pos 0 && same marker 4
      | _ => false)) = true := by decide +kernel

/-- tests/error_types.rs:671 `control_error_table_idx`, input tests/fixtures/malformed/call_indirect_tableidx_overlong.wasm -/
example : onErr [0, 97, 115, 109, 1, 0, 0, 0, 1, 4, 1, 96, 0, 0, 3, 2, 1, 0, 10, 11, 1, 9, 0, 17, 0, 128, 128,
        128, 128, 128, 11]
    (fun e =>
    (match e with
      | (.DecodeCodeSection (.DecodeList (.ParseElement (position := position) (source :=
          (.DecodeFunctionBody (.ParseInstruction (.Control (.TableIdx (.mk
          .RepresentationTooLong))))))))) => same position 0
      | _ => false)) = true := by decide +kernel

/-- tests/error_types.rs:699 `control_error_type_idx`, input tests/fixtures/malformed/call_indirect_typeidx_overlong.wasm -/
example : onErr [0, 97, 115, 109, 1, 0, 0, 0, 1, 4, 1, 96, 0, 0, 3, 2, 1, 0, 10, 11, 1, 9, 0, 17, 128, 128, 128,
        128, 128, 0, 11]
    (fun e =>
    (match e with
      | (.DecodeCodeSection (.DecodeList (.ParseElement (position := position) (source :=
          (.DecodeFunctionBody (.ParseInstruction (.Control (.TypeIdx (.mk
          .RepresentationTooLong))))))))) => same position 0
      | _ => false)) = true := by decide +kernel

/-- tests/error_types.rs:727 `control_error_block_type`, input tests/fixtures/malformed/block_missing_blocktype.wasm -/
example : onErr [0, 97, 115, 109, 1, 0, 0, 0, 1, 4, 1, 96, 0, 0, 3, 2, 1, 0, 10, 4, 1, 2, 0, 2]
    (fun e =>
    (match e with
      | (.DecodeCodeSection (.DecodeList (.ParseElement (position := position) (source :=
          (.DecodeFunctionBody (.ParseInstruction (.Control (.BlockType (.ReadMarkerByte
          io_err))))))))) => same position 0 && same io_err IoError.unexpectedEof
      | _ => false)) = true := by decide +kernel

/-- tests/error_types.rs:756 `control_error_unexpected_else`, input tests/fixtures/malformed/if_unexpected_else.wasm -/
example : onErr [0, 97, 115, 109, 1, 0, 0, 0, 1, 4, 1, 96, 0, 0, 3, 2, 1, 0, 10, 8, 1, 6, 0, 4, 64, 5, 5, 11]
    (fun e =>
    (match e with
      | (.DecodeCodeSection (.DecodeList (.ParseElement (position := position) (source :=
          (.DecodeFunctionBody (.ParseInstruction (.Control .UnexpectedElse))))))) => same
          position 0
      | _ => false)) = true := by decide +kernel

/-- tests/error_types.rs:782 `control_error_unexpected_else_in_block`, input tests/fixtures/malformed/block_unexpected_else.wasm -/
example : onErr [0, 97, 115, 109, 1, 0, 0, 0, 1, 4, 1, 96, 0, 0, 3, 2, 1, 0, 10, 8, 1, 6, 0, 2, 64, 5, 11, 11]
    (fun e =>
    (match e with
      | (.DecodeCodeSection (.DecodeList (.ParseElement (position := position) (source :=
          (.DecodeFunctionBody (.ParseInstruction (.Control .UnexpectedElse))))))) => same
          position 0
      | _ => false)) = true := by decide +kernel

/-- tests/error_types.rs:807 `control_error_unexpected_else_in_loop`, input tests/fixtures/malformed/loop_unexpected_else.wasm -/
example : onErr [0, 97, 115, 109, 1, 0, 0, 0, 1, 4, 1, 96, 0, 0, 3, 2, 1, 0, 10, 8, 1, 6, 0, 3, 64, 5, 11, 11]
    (fun e =>
    (match e with
      | (.DecodeCodeSection (.DecodeList (.ParseElement (position := position) (source :=
          (.DecodeFunctionBody (.ParseInstruction (.Control .UnexpectedElse))))))) => same
          position 0
      | _ => false)) = true := by decide +kernel

/-- tests/error_types.rs:832 `control_error_unexpected_else_in_try_table`, input tests/fixtures/malformed/try_table_unexpected_else.wasm -/
example : onErr [0, 97, 115, 109, 1, 0, 0, 0, 1, 4, 1, 96, 0, 0, 3, 2, 1, 0, 10, 11, 1, 9, 0, 31, 64, 1, 2, 0, 5,
        11, 11]
    (fun e =>
    (match e with
      | (.DecodeCodeSection (.DecodeList (.ParseElement (position := position) (source :=
          (.DecodeFunctionBody (.ParseInstruction (.Control .UnexpectedElse))))))) => same
          position 0
      | _ => false)) = true := by decide +kernel

/-- tests/error_types.rs:857 `reference_error_func_idx`, input tests/fixtures/malformed/ref_func_overlong.wasm -/
example : onErr [0, 97, 115, 109, 1, 0, 0, 0, 1, 4, 1, 96, 0, 0, 3, 2, 1, 0, 10, 10, 1, 8, 0, 210, 128, 128, 128,
        128, 128, 11]
    (fun e =>
    (match e with
      | (.DecodeCodeSection (.DecodeList (.ParseElement (position := position) (source :=
          (.DecodeFunctionBody (.ParseInstruction (.Reference (.FuncIdx (.mk
          .RepresentationTooLong))))))))) => same position 0
      | _ => false)) = true := by decide +kernel

/-- tests/error_types.rs:885 `func_idx_error_for_overlong_call_instruction`, input tests/fixtures/malformed/function_call_funcidx_overlong.wasm -/
example : onErr [0, 97, 115, 109, 1, 0, 0, 0, 1, 4, 1, 96, 0, 0, 3, 2, 1, 0, 10, 10, 1, 8, 0, 16, 128, 128, 128,
        128, 128, 11]
    (fun e =>
    (match e with
      | (.DecodeCodeSection (.DecodeList (.ParseElement (position := position) (source :=
          (.DecodeFunctionBody (.ParseInstruction (.Control (.FuncIdx (.mk
          .RepresentationTooLong))))))))) => same position 0
      | _ => false)) = true := by decide +kernel

/-- tests/error_types.rs:913 `table_idx_error_for_overlong_table_get_instruction`, input tests/fixtures/malformed/table_get_tableidx_overlong.wasm -/
example : onErr [0, 97, 115, 109, 1, 0, 0, 0, 1, 4, 1, 96, 0, 0, 3, 2, 1, 0, 10, 10, 1, 8, 0, 37, 128, 128, 128,
        128, 128, 11]
    (fun e =>
    (match e with
      | (.DecodeCodeSection (.DecodeList (.ParseElement (position := position) (source :=
          (.DecodeFunctionBody (.ParseInstruction (.Table (.TableIdx (.mk
          .RepresentationTooLong))))))))) => same position 0
      | _ => false)) = true := by decide +kernel

/-- tests/error_types.rs:941 `mem_idx_error_for_overlong_data_segment_memory_index`, input tests/fixtures/malformed/data_section_memidx_overlong.wasm -/
example : onErr [0, 97, 115, 109, 1, 0, 0, 0, 11, 7, 1, 2, 128, 128, 128, 128, 128]
    (fun e =>
    (match e with
      | (.DecodeDataSection (.DecodeList (.ParseElement (position := position) (source :=
          (.DecodeMemIdx (.mk .RepresentationTooLong)))))) => same position 0
      | _ => false)) = true := by decide +kernel

/-- tests/error_types.rs:967 `global_idx_error_for_overlong_global_get_instruction`, input tests/fixtures/malformed/global_get_globalidx_overlong.wasm -/
example : onErr [0, 97, 115, 109, 1, 0, 0, 0, 1, 4, 1, 96, 0, 0, 3, 2, 1, 0, 10, 10, 1, 8, 0, 35, 128, 128, 128,
        128, 128, 11]
    (fun e =>
    (match e with
      | (.DecodeCodeSection (.DecodeList (.ParseElement (position := position) (source :=
          (.DecodeFunctionBody (.ParseInstruction (.Variable (.GlobalIdx (.mk
          .RepresentationTooLong))))))))) => same position 0
      | _ => false)) = true := by decide +kernel

/-- tests/error_types.rs:994 `elem_idx_error_for_overlong_elem_drop_instruction`, input tests/fixtures/malformed/elem_drop_elemidx_overlong.wasm -/
example : onErr [0, 97, 115, 109, 1, 0, 0, 0, 1, 4, 1, 96, 0, 0, 3, 2, 1, 0, 10, 11, 1, 9, 0, 252, 13, 128, 128,
        128, 128, 128, 11]
    (fun e =>
    (match e with
      | (.DecodeCodeSection (.DecodeList (.ParseElement (position := position) (source :=
          (.DecodeFunctionBody (.ParseInstruction (.Table (.ElemIdx (.mk
          .RepresentationTooLong))))))))) => same position 0
      | _ => false)) = true := by decide +kernel

/-- tests/error_types.rs:1021 `data_idx_error_for_overlong_data_drop_instruction`, input tests/fixtures/malformed/data_drop_dataidx_overlong.wasm -/
example : onErr [0, 97, 115, 109, 1, 0, 0, 0, 1, 4, 1, 96, 0, 0, 3, 2, 1, 0, 10, 11, 1, 9, 0, 252, 9, 128, 128,
        128, 128, 128, 11]
    (fun e =>
    (match e with
      | (.DecodeCodeSection (.DecodeList (.ParseElement (position := position) (source :=
          (.DecodeFunctionBody (.ParseInstruction (.Memory (.DecodeDataIdx (.mk
          .RepresentationTooLong))))))))) => same position 0
      | _ => false)) = true := by decide +kernel

/-- tests/error_types.rs:1048 `local_idx_error_for_overlong_local_get_instruction`, input tests/fixtures/malformed/local_get_localidx_overlong.wasm -/
example : onErr [0, 97, 115, 109, 1, 0, 0, 0, 1, 4, 1, 96, 0, 0, 3, 2, 1, 0, 10, 10, 1, 8, 0, 32, 128, 128, 128,
        128, 128, 11]
    (fun e =>
    (match e with
      | (.DecodeCodeSection (.DecodeList (.ParseElement (position := position) (source :=
          (.DecodeFunctionBody (.ParseInstruction (.Variable (.LocalIdx (.mk
          .RepresentationTooLong))))))))) => same position 0
      | _ => false)) = true := by decide +kernel

/-- tests/error_types.rs:1075 `label_idx_error_for_overlong_br_instruction`, input tests/fixtures/malformed/br_labelidx_overlong.wasm -/
example : onErr [0, 97, 115, 109, 1, 0, 0, 0, 1, 4, 1, 96, 0, 0, 3, 2, 1, 0, 10, 10, 1, 8, 0, 12, 128, 128, 128,
        128, 128, 11]
    (fun e =>
    (match e with
      | (.DecodeCodeSection (.DecodeList (.ParseElement (position := position) (source :=
          (.DecodeFunctionBody (.ParseInstruction (.Control (.LabelIdx (.mk
          .RepresentationTooLong))))))))) => same position 0
      | _ => false)) = true := by decide +kernel

/-- tests/error_types.rs:1102 `decode_u32_error_too_large_for_type_section_length`, input tests/fixtures/malformed/type_section_length_too_large.wasm -/
example : onErr [0, 97, 115, 109, 1, 0, 0, 0, 1, 5, 255, 255, 255, 255, 16]
    (fun e =>
    (match e with
      | (.DecodeTypeSection (.DecodeList (.DecodeLength u32_err))) => (match u32_err with
        | .TooLarge => true
        | _ => false)
      | _ => false)) = true := by decide +kernel

/-- tests/error_types.rs:1124 `decode_u32_error_representation_too_long_for_section_size`, input tests/fixtures/malformed/section_size_representation_too_long.wasm -/
example : onErr [0, 97, 115, 109, 1, 0, 0, 0, 1, 128, 128, 128, 128, 128]
    (fun e =>
    (match e with
      | (.DecodeSectionHeader (.DecodeSectionSize u32_err)) => (match u32_err with
        | .RepresentationTooLong => true
        | _ => false)
      | _ => false)) = true := by decide +kernel

/-- tests/error_types.rs:1145 `parametric_error_decode_vector_invalid_valtype`, input tests/fixtures/malformed/select_type_vector_invalid_valtype.wasm -/
example : onErr [0, 97, 115, 109, 1, 0, 0, 0, 1, 4, 1, 96, 0, 0, 3, 2, 1, 0, 10, 7, 1, 5, 0, 28, 1, 255, 11]
    (fun e =>
    (match e with
      | (.DecodeCodeSection (.DecodeList (.ParseElement (position := position) (source :=
          (.DecodeFunctionBody (.ParseInstruction (.Parametric (.DecodeList (.ParseElement
          (position := vec_pos) (source := (.DecodeRefType (.InvalidMarkerByte (.InvalidMarkerByte
          err))))))))))))) => same position 0 && same vec_pos 0 && same err (.mk 255)
      | _ => false)) = true := by decide +kernel

/-- tests/error_types.rs:1184 `memory_error_decode_memarg_missing_offset`, input tests/fixtures/malformed/i32_load_memarg_truncated_offset.wasm -/
example : onErr [0, 97, 115, 109, 1, 0, 0, 0, 1, 4, 1, 96, 0, 0, 3, 2, 1, 0, 10, 5, 1, 3, 0, 40, 1]
    (fun e =>
    (match e with
      | (.DecodeCodeSection (.DecodeList (.ParseElement (position := position) (source :=
          (.DecodeFunctionBody (.ParseInstruction (.Memory (.DecodeMemarg memarg_err)))))))) =>
          same position 0 && (match memarg_err with
        | (.Offset (.Io io_err)) => same io_err IoError.unexpectedEof
        | _ => false)
      | _ => false)) = true := by decide +kernel

/-- tests/error_types.rs:1217 `numeric_error_read_opcode_truncated_fc_prefix`, input tests/fixtures/malformed/numeric_fc_opcode_truncated.wasm -/
example : onErr [0, 97, 115, 109, 1, 0, 0, 0, 1, 4, 1, 96, 0, 0, 3, 2, 1, 0, 10, 4, 1, 2, 0, 252]
    (fun e =>
    (match e with
      | (.DecodeCodeSection (.DecodeList (.ParseElement (position := position) (source :=
          (.DecodeFunctionBody (.ParseInstruction (.Numeric (.ReadOpcode u32_err)))))))) => same
          position 0 && (match u32_err with
        | (.Io io_err) => same io_err IoError.unexpectedEof
        | _ => false)
      | _ => false)) = true := by decide +kernel

/-- tests/error_types.rs:1248 `numeric_error_decode_f32_truncated_payload`, input tests/fixtures/malformed/f32_const_truncated.wasm -/
example : onErr [0, 97, 115, 109, 1, 0, 0, 0, 1, 4, 1, 96, 0, 0, 3, 2, 1, 0, 10, 6, 1, 4, 0, 67, 0, 0]
    (fun e =>
    (match e with
      | (.DecodeCodeSection (.DecodeList (.ParseElement (position := position) (source :=
          (.DecodeFunctionBody (.ParseInstruction (.Numeric (.DecodeF32 f32_err)))))))) => same
          position 0 && (match f32_err with
        | (.ReadPayload io_err) => same io_err IoError.unexpectedEof)
      | _ => false)) = true := by decide +kernel

/-- tests/error_types.rs:1278 `numeric_error_decode_f64_truncated_payload`, input tests/fixtures/malformed/numeric_f64_const_truncated.wasm -/
example : onErr [0, 97, 115, 109, 1, 0, 0, 0, 1, 4, 1, 96, 0, 0, 3, 2, 1, 0, 10, 8, 1, 6, 0, 68, 0, 0, 0, 0]
    (fun e =>
    (match e with
      | (.DecodeCodeSection (.DecodeList (.ParseElement (position := position) (source :=
          (.DecodeFunctionBody (.ParseInstruction (.Numeric (.DecodeF64 f64_err)))))))) => same
          position 0 && (match f64_err with
        | (.ReadPayload io_err) => same io_err IoError.unexpectedEof)
      | _ => false)) = true := by decide +kernel

/-- tests/error_types.rs:1308 `vector_error_read_opcode_truncated`, input tests/fixtures/malformed/vector_opcode_truncated.wasm -/
example : onErr [0, 97, 115, 109, 1, 0, 0, 0, 1, 4, 1, 96, 0, 0, 3, 2, 1, 0, 10, 4, 1, 2, 0, 253]
    (fun e =>
    (match e with
      | (.DecodeCodeSection (.DecodeList (.ParseElement (position := position) (source :=
          (.DecodeFunctionBody (.ParseInstruction (.Vector (.ReadOpcode u32_err)))))))) => same
          position 0 && (match u32_err with
        | (.Io io_err) => same io_err IoError.unexpectedEof
        | _ => false)
      | _ => false)) = true := by decide +kernel

/-- tests/error_types.rs:1339 `vector_error_memarg_offset_missing`, input tests/fixtures/malformed/vector_memarg_offset_truncated.wasm -/
example : onErr [0, 97, 115, 109, 1, 0, 0, 0, 1, 4, 1, 96, 0, 0, 3, 2, 1, 0, 10, 6, 1, 4, 0, 253, 0, 1]
    (fun e =>
    (match e with
      | (.DecodeCodeSection (.DecodeList (.ParseElement (position := position) (source :=
          (.DecodeFunctionBody (.ParseInstruction (.Vector (.Memarg (.Offset (.Io io_err))))))))))
          => same position 0 && same io_err IoError.unexpectedEof
      | _ => false)) = true := by decide +kernel

/-- tests/error_types.rs:1367 `vector_error_laneidx_missing`, input tests/fixtures/malformed/vector_laneidx_missing.wasm -/
example : onErr [0, 97, 115, 109, 1, 0, 0, 0, 1, 4, 1, 96, 0, 0, 3, 2, 1, 0, 10, 7, 1, 5, 0, 253, 84, 0, 0]
    (fun e =>
    (match e with
      | (.DecodeCodeSection (.DecodeList (.ParseElement (position := position) (source :=
          (.DecodeFunctionBody (.ParseInstruction (.Vector (.LaneIdx (.mk io_err))))))))) => same
          position 0 && same io_err IoError.unexpectedEof
      | _ => false)) = true := by decide +kernel

/-- tests/error_types.rs:1393 `vector_error_read_immediate_bytes`, input tests/fixtures/malformed/vector_immediates_truncated.wasm -/
example : onErr [0, 97, 115, 109, 1, 0, 0, 0, 1, 4, 1, 96, 0, 0, 3, 2, 1, 0, 10, 8, 1, 6, 0, 253, 12, 0, 0, 0]
    (fun e =>
    (match e with
      | (.DecodeCodeSection (.DecodeList (.ParseElement (position := position) (source :=
          (.DecodeFunctionBody (.ParseInstruction (.Vector (.ReadImmediateBytes io_err)))))))) =>
          same position 0 && same io_err IoError.unexpectedEof
      | _ => false)) = true := by decide +kernel

/-- tests/error_types.rs:1419 `vector_error_invalid_opcode`, input tests/fixtures/malformed/vector_invalid_opcode.wasm -/
example : onErr [0, 97, 115, 109, 1, 0, 0, 0, 1, 4, 1, 96, 0, 0, 3, 2, 1, 0, 10, 8, 1, 6, 0, 253, 255, 255, 3, 11]
    (fun e =>
    (match e with
      | (.DecodeCodeSection (.DecodeList (.ParseElement (position := position) (source :=
          (.DecodeFunctionBody (.ParseInstruction (.Vector (.InvalidOpcode op)))))))) => same
          position 0 && same op 65535
      | _ => false)) = true := by decide +kernel

/-- tests/error_types.rs:1445 `memarg_error_align_missing`, input tests/fixtures/malformed/memarg_align_missing.wasm -/
example : onErr [0, 97, 115, 109, 1, 0, 0, 0, 1, 4, 1, 96, 0, 0, 3, 2, 1, 0, 10, 4, 1, 2, 0, 40]
    (fun e =>
    (match e with
      | (.DecodeCodeSection (.DecodeList (.ParseElement (position := position) (source :=
          (.DecodeFunctionBody (.ParseInstruction (.Memory (.DecodeMemarg (.Align (.Io
          io_err)))))))))) => same position 0 && same io_err IoError.unexpectedEof
      | _ => false)) = true := by decide +kernel

/-- tests/error_types.rs:1474 `memarg_error_invalid_flags_bit`, input tests/fixtures/malformed/memarg_invalid_flags_bit.wasm -/
example : onErr [0, 97, 115, 109, 1, 0, 0, 0, 1, 4, 1, 96, 0, 0, 3, 2, 1, 0, 5, 3, 1, 0, 1, 10, 10, 1, 8, 0, 65,
        0, 40, 128, 1, 0, 11]
    (fun e =>
    (match e with
      | (.DecodeCodeSection (.DecodeList (.ParseElement (position := position) (source :=
          (.DecodeFunctionBody (.ParseInstruction (.Memory (.DecodeMemarg (.InvalidFlagsBit
          flags))))))))) => same position 0 && same flags 128
      | _ => false)) = true := by decide +kernel

/-- tests/error_types.rs:1502 `lane_idx_error_missing_byte`, input tests/fixtures/malformed/vector_laneidx_missing.wasm -/
example : onErr [0, 97, 115, 109, 1, 0, 0, 0, 1, 4, 1, 96, 0, 0, 3, 2, 1, 0, 10, 7, 1, 5, 0, 253, 84, 0, 0]
    (fun e =>
    (match e with
      | (.DecodeCodeSection (.DecodeList (.ParseElement (position := position) (source :=
          (.DecodeFunctionBody (.ParseInstruction (.Vector (.LaneIdx (.mk io_err))))))))) => same
          position 0 && same io_err IoError.unexpectedEof
      | _ => false)) = true := by decide +kernel

/-- tests/error_types.rs:1528 `block_type_error_read_marker_byte`, input tests/fixtures/malformed/block_missing_blocktype.wasm -/
example : onErr [0, 97, 115, 109, 1, 0, 0, 0, 1, 4, 1, 96, 0, 0, 3, 2, 1, 0, 10, 4, 1, 2, 0, 2]
    (fun e =>
    (match e with
      | (.DecodeCodeSection (.DecodeList (.ParseElement (position := position) (source :=
          (.DecodeFunctionBody (.ParseInstruction (.Control (.BlockType (.ReadMarkerByte
          io_err))))))))) => same position 0 && same io_err IoError.unexpectedEof
      | _ => false)) = true := by decide +kernel

/-- tests/error_types.rs:1556 `block_type_error_decode_index_truncated`, input tests/fixtures/malformed/blocktype_index_truncated.wasm -/
example : onErr [0, 97, 115, 109, 1, 0, 0, 0, 1, 4, 1, 96, 0, 0, 3, 2, 1, 0, 10, 5, 1, 3, 0, 2, 128]
    (fun e =>
    (match e with
      | (.DecodeCodeSection (.DecodeList (.ParseElement (position := position) (source :=
          (.DecodeFunctionBody (.ParseInstruction (.Control (.BlockType (.DecodeIndex (.Io
          io_err)))))))))) => same position 0 && same io_err IoError.unexpectedEof
      | _ => false)) = true := by decide +kernel

/-- tests/error_types.rs:1584 `block_type_error_negative_type_index`, input tests/fixtures/malformed/blocktype_negative_typeidx.wasm -/
example : onErr [0, 97, 115, 109, 1, 0, 0, 0, 1, 4, 1, 96, 0, 0, 3, 2, 1, 0, 10, 6, 1, 4, 0, 2, 95, 11]
    (fun e =>
    (match e with
      | (.DecodeCodeSection (.DecodeList (.ParseElement (position := position) (source :=
          (.DecodeFunctionBody (.ParseInstruction (.Control (.BlockType (.NegativeTypeIndex
          n))))))))) => same position 0 && (decide (n < 0))
      | _ => false)) = true := by decide +kernel

/-- tests/error_types.rs:1612 `decode_rec_type_error_read_marker_byte`, input tests/fixtures/malformed/type_section_comptype_marker_missing.wasm -/
example : onErr [0, 97, 115, 109, 1, 0, 0, 0, 1, 1, 1]
    (fun e =>
    (match e with
      | (.DecodeTypeSection (.DecodeList (.ParseElement (position := position) (source := (.Io
          io_err))))) => same position 0 && same io_err IoError.unexpectedEof
      | _ => false)) = true := by decide +kernel

/-- tests/error_types.rs:1636 `decode_rec_type_error_invalid_marker_byte`, input tests/fixtures/malformed/type_section_comptype_invalid_marker.wasm -/
example : onErr [0, 97, 115, 109, 1, 0, 0, 0, 1, 2, 1, 0]
    (fun e =>
    (match e with
      | (.DecodeTypeSection (.DecodeList (.ParseElement (position := position) (source :=
          (.DecodeSubtype (.DecodeCompType (.InvalidMarkerByte b))))))) => same position 0 && same
          b 0
      | _ => false)) = true := by decide +kernel

/-- tests/error_types.rs:1664 `decode_rec_type_error_parameter_types_invalid_valtype`, input tests/fixtures/malformed/type_section_param_invalid_valtype.wasm -/
example : onErr [0, 97, 115, 109, 1, 0, 0, 0, 1, 5, 1, 96, 1, 255, 0]
    (fun e =>
    (match e with
      | (.DecodeTypeSection (.DecodeList (.ParseElement (position := position) (source :=
          (.DecodeSubtype (.DecodeCompType (.DecodeFuncParameters (.DecodeList (.ParseElement
          (position := inner_pos) (source := (.DecodeRefType (.InvalidMarkerByte
          (.InvalidMarkerByte err))))))))))))) => same position 0 && same inner_pos 0 && same err
          (.mk 255)
      | _ => false)) = true := by decide +kernel

/-- tests/error_types.rs:1703 `decode_rec_type_error_result_types_truncated`, input tests/fixtures/malformed/type_section_result_valtype_truncated.wasm -/
example : onErr [0, 97, 115, 109, 1, 0, 0, 0, 1, 4, 1, 96, 0, 1]
    (fun e =>
    (match e with
      | (.DecodeTypeSection (.DecodeList (.ParseElement (position := position) (source :=
          (.DecodeSubtype (.DecodeCompType (.DecodeFuncResults (.DecodeList (.ParseElement
          (position := inner_pos) (source := (.Io io_err))))))))))) => same position 0 && same
          inner_pos 0 && same io_err IoError.unexpectedEof
      | _ => false)) = true := by decide +kernel

end Wadec.Check
