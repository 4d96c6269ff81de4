import Verif.Check.Base

/-! Generated by tools/gen_tests.py from /repo/tests/tests.rs: the project's own tests, run on the model by the
kernel.  These are not claims; they are checks that the model is a model of this code. -/

namespace Wadec.Check
open Wadec

set_option maxRecDepth 100000

/-- tests/tests.rs:1953 `it_decodes_memarg_with_memidx_for_loads_and_stores`, input tests/fixtures/memory_instructions_memidx.wasm: the expected instructions are the
listed ones, so each of them must occur, and only with memory index 1. -/
def kind_it_decodes_memarg_with_memidx_for_loads_and_stores : Instr → Option (Nat × MemIdx)
    | .mem .I32Load m => some (0, m.mem_idx)
    | .mem .I64Load m => some (1, m.mem_idx)
    | .mem .F32Load m => some (2, m.mem_idx)
    | .mem .F64Load m => some (3, m.mem_idx)
    | .mem .I32Load8s m => some (4, m.mem_idx)
    | .mem .I32Load8u m => some (5, m.mem_idx)
    | .mem .I32Load16s m => some (6, m.mem_idx)
    | .mem .I32Load16u m => some (7, m.mem_idx)
    | .mem .I64Load8s m => some (8, m.mem_idx)
    | .mem .I64Load8u m => some (9, m.mem_idx)
    | .mem .I64Load16s m => some (10, m.mem_idx)
    | .mem .I64Load16u m => some (11, m.mem_idx)
    | .mem .I64Load32s m => some (12, m.mem_idx)
    | .mem .I64Load32u m => some (13, m.mem_idx)
    | .mem .I32Store m => some (14, m.mem_idx)
    | .mem .I64Store m => some (15, m.mem_idx)
    | .mem .F32Store m => some (16, m.mem_idx)
    | .mem .F64Store m => some (17, m.mem_idx)
    | .mem .I32Store8 m => some (18, m.mem_idx)
    | .mem .I32Store16 m => some (19, m.mem_idx)
    | .mem .I64Store8 m => some (20, m.mem_idx)
    | .mem .I64Store16 m => some (21, m.mem_idx)
    | .mem .I64Store32 m => some (22, m.mem_idx)
    | _ => none

example : onOk [0, 97, 115, 109, 1, 0, 0, 0, 1, 4, 1, 96, 0, 0, 3, 2, 1, 0, 5, 5, 2, 0, 1, 0, 1, 10, 185, 1, 1,
        182, 1, 0, 65, 0, 40, 66, 1, 0, 26, 65, 0, 41, 67, 1, 0, 26, 65, 0, 42, 66, 1, 0, 26, 65,
        0, 43, 67, 1, 0, 26, 65, 0, 44, 64, 1, 0, 26, 65, 0, 45, 64, 1, 0, 26, 65, 0, 46, 65, 1,
        0, 26, 65, 0, 47, 65, 1, 0, 26, 65, 0, 48, 64, 1, 0, 26, 65, 0, 49, 64, 1, 0, 26, 65, 0,
        50, 65, 1, 0, 26, 65, 0, 51, 65, 1, 0, 26, 65, 0, 52, 66, 1, 0, 26, 65, 0, 53, 66, 1, 0,
        26, 65, 4, 65, 1, 54, 66, 1, 0, 65, 8, 66, 2, 55, 67, 1, 0, 65, 12, 67, 0, 0, 128, 63, 56,
        66, 1, 0, 65, 16, 68, 0, 0, 0, 0, 0, 0, 0, 64, 57, 67, 1, 0, 65, 20, 65, 5, 58, 64, 1, 0,
        65, 22, 65, 6, 59, 65, 1, 0, 65, 24, 66, 7, 60, 64, 1, 0, 65, 26, 66, 8, 61, 65, 1, 0, 65,
        28, 66, 9, 62, 66, 1, 0, 11]
    (fun m => same m.mems.length 2 && let seen := m.funcs[0]!.body.filterMap kind_it_decodes_memarg_with_memidx_for_loads_and_stores
      (List.range 23).all (fun k => seen.any (fun p => p.1 == k)) &&
      seen.all (fun p => same p.2 ⟨1⟩)) = true := by decide +kernel

/-- tests/tests.rs:3146 `it_decodes_simd_memarg_with_memidx`, input tests/fixtures/vector_memory_instructions_memidx.wasm: the expected instructions are the
listed ones, so each of them must occur, and only with memory index 1. -/
def kind_it_decodes_simd_memarg_with_memidx : Instr → Option (Nat × MemIdx)
    | .mem .V128Load m => some (0, m.mem_idx)
    | .mem .V128Load8x8S m => some (1, m.mem_idx)
    | .mem .V128Load8x8U m => some (2, m.mem_idx)
    | .mem .V128Load16x4S m => some (3, m.mem_idx)
    | .mem .V128Load16x4U m => some (4, m.mem_idx)
    | .mem .V128Load32x2S m => some (5, m.mem_idx)
    | .mem .V128Load32x2U m => some (6, m.mem_idx)
    | .mem .V128Load8Splat m => some (7, m.mem_idx)
    | .mem .V128Load16Splat m => some (8, m.mem_idx)
    | .mem .V128Load32Splat m => some (9, m.mem_idx)
    | .mem .V128Load64Splat m => some (10, m.mem_idx)
    | .mem .V128Load32Zero m => some (11, m.mem_idx)
    | .mem .V128Load64Zero m => some (12, m.mem_idx)
    | .mem .V128Store m => some (13, m.mem_idx)
    | .memLane .V128Load8Lane m _ => some (14, m.mem_idx)
    | .memLane .V128Load16Lane m _ => some (15, m.mem_idx)
    | .memLane .V128Load32Lane m _ => some (16, m.mem_idx)
    | .memLane .V128Load64Lane m _ => some (17, m.mem_idx)
    | .memLane .V128Store8Lane m _ => some (18, m.mem_idx)
    | .memLane .V128Store16Lane m _ => some (19, m.mem_idx)
    | .memLane .V128Store32Lane m _ => some (20, m.mem_idx)
    | .memLane .V128Store64Lane m _ => some (21, m.mem_idx)
    | _ => none

example : onOk [0, 97, 115, 109, 1, 0, 0, 0, 1, 4, 1, 96, 0, 0, 3, 2, 1, 0, 5, 5, 2, 0, 1, 0, 1, 10, 218, 2, 1,
        215, 2, 0, 65, 0, 253, 0, 68, 1, 0, 26, 65, 0, 253, 1, 67, 1, 0, 26, 65, 0, 253, 2, 67, 1,
        0, 26, 65, 0, 253, 3, 67, 1, 0, 26, 65, 0, 253, 4, 67, 1, 0, 26, 65, 0, 253, 5, 67, 1, 0,
        26, 65, 0, 253, 6, 67, 1, 0, 26, 65, 0, 253, 7, 64, 1, 0, 26, 65, 0, 253, 8, 65, 1, 0, 26,
        65, 0, 253, 9, 66, 1, 0, 26, 65, 0, 253, 10, 67, 1, 0, 26, 65, 0, 253, 92, 66, 1, 0, 26,
        65, 0, 253, 93, 67, 1, 0, 26, 65, 0, 253, 12, 0, 0, 0, 0, 0, 0, 0, 0, 0, 0, 0, 0, 0, 0, 0,
        0, 253, 11, 68, 1, 0, 65, 0, 253, 12, 0, 0, 0, 0, 0, 0, 0, 0, 0, 0, 0, 0, 0, 0, 0, 0, 253,
        84, 64, 1, 0, 0, 26, 65, 0, 253, 12, 0, 0, 0, 0, 0, 0, 0, 0, 0, 0, 0, 0, 0, 0, 0, 0, 253,
        85, 65, 1, 0, 0, 26, 65, 0, 253, 12, 0, 0, 0, 0, 0, 0, 0, 0, 0, 0, 0, 0, 0, 0, 0, 0, 253,
        86, 66, 1, 0, 0, 26, 65, 0, 253, 12, 0, 0, 0, 0, 0, 0, 0, 0, 0, 0, 0, 0, 0, 0, 0, 0, 253,
        87, 67, 1, 0, 0, 26, 65, 0, 253, 12, 0, 0, 0, 0, 0, 0, 0, 0, 0, 0, 0, 0, 0, 0, 0, 0, 253,
        88, 64, 1, 0, 0, 65, 0, 253, 12, 0, 0, 0, 0, 0, 0, 0, 0, 0, 0, 0, 0, 0, 0, 0, 0, 253, 89,
        65, 1, 0, 0, 65, 0, 253, 12, 0, 0, 0, 0, 0, 0, 0, 0, 0, 0, 0, 0, 0, 0, 0, 0, 253, 90, 66,
        1, 0, 0, 65, 0, 253, 12, 0, 0, 0, 0, 0, 0, 0, 0, 0, 0, 0, 0, 0, 0, 0, 0, 253, 91, 67, 1,
        0, 0, 11]
    (fun m => same m.mems.length 2 && let seen := m.funcs[0]!.body.filterMap kind_it_decodes_simd_memarg_with_memidx
      (List.range 22).all (fun k => seen.any (fun p => p.1 == k)) &&
      seen.all (fun p => same p.2 ⟨1⟩)) = true := by decide +kernel

/-- tests/tests.rs:2605 `it_decodes_numeric_instructions`, input ./tests/fixtures/numeric_instructions.wasm: the expected instructions are the
listed ones, so each of them must occur. -/
def kind_it_decodes_numeric_instructions : Instr → Option (Nat × MemIdx)
    | .I32Const _ => some (0, ⟨1⟩)
    | .I64Const _ => some (1, ⟨1⟩)
    | .F32Const _ => some (2, ⟨1⟩)
    | .F64Const _ => some (3, ⟨1⟩)
    | .plain .I32Eqz => some (4, ⟨1⟩)
    | .plain .I32Eq => some (5, ⟨1⟩)
    | .plain .I32Ne => some (6, ⟨1⟩)
    | .plain .I32LtS => some (7, ⟨1⟩)
    | .plain .I32LtU => some (8, ⟨1⟩)
    | .plain .I32GtS => some (9, ⟨1⟩)
    | .plain .I32GtU => some (10, ⟨1⟩)
    | .plain .I32LeS => some (11, ⟨1⟩)
    | .plain .I32LeU => some (12, ⟨1⟩)
    | .plain .I32GeS => some (13, ⟨1⟩)
    | .plain .I32GeU => some (14, ⟨1⟩)
    | .plain .I64Eqz => some (15, ⟨1⟩)
    | .plain .I64Eq => some (16, ⟨1⟩)
    | .plain .I64Ne => some (17, ⟨1⟩)
    | .plain .I64LtS => some (18, ⟨1⟩)
    | .plain .I64LtU => some (19, ⟨1⟩)
    | .plain .I64GtS => some (20, ⟨1⟩)
    | .plain .I64GtU => some (21, ⟨1⟩)
    | .plain .I64LeS => some (22, ⟨1⟩)
    | .plain .I64LeU => some (23, ⟨1⟩)
    | .plain .I64GeS => some (24, ⟨1⟩)
    | .plain .I64GeU => some (25, ⟨1⟩)
    | .plain .F32Eq => some (26, ⟨1⟩)
    | .plain .F32Ne => some (27, ⟨1⟩)
    | .plain .F32Lt => some (28, ⟨1⟩)
    | .plain .F32Gt => some (29, ⟨1⟩)
    | .plain .F32Le => some (30, ⟨1⟩)
    | .plain .F32Ge => some (31, ⟨1⟩)
    | .plain .F64Eq => some (32, ⟨1⟩)
    | .plain .F64Ne => some (33, ⟨1⟩)
    | .plain .F64Lt => some (34, ⟨1⟩)
    | .plain .F64Gt => some (35, ⟨1⟩)
    | .plain .F64Le => some (36, ⟨1⟩)
    | .plain .F64Ge => some (37, ⟨1⟩)
    | .plain .I32Clz => some (38, ⟨1⟩)
    | .plain .I32Ctz => some (39, ⟨1⟩)
    | .plain .I32Popcnt => some (40, ⟨1⟩)
    | .plain .I32Add => some (41, ⟨1⟩)
    | .plain .I32Sub => some (42, ⟨1⟩)
    | .plain .I32Mul => some (43, ⟨1⟩)
    | .plain .I32DivS => some (44, ⟨1⟩)
    | .plain .I32DivU => some (45, ⟨1⟩)
    | .plain .I32RemS => some (46, ⟨1⟩)
    | .plain .I32RemU => some (47, ⟨1⟩)
    | .plain .I32And => some (48, ⟨1⟩)
    | .plain .I32Or => some (49, ⟨1⟩)
    | .plain .I32Xor => some (50, ⟨1⟩)
    | .plain .I32Shl => some (51, ⟨1⟩)
    | .plain .I32ShrS => some (52, ⟨1⟩)
    | .plain .I32ShrU => some (53, ⟨1⟩)
    | .plain .I32Rotl => some (54, ⟨1⟩)
    | .plain .I32Rotr => some (55, ⟨1⟩)
    | .plain .I64Clz => some (56, ⟨1⟩)
    | .plain .I64Ctz => some (57, ⟨1⟩)
    | .plain .I64Popcnt => some (58, ⟨1⟩)
    | .plain .I64Add => some (59, ⟨1⟩)
    | .plain .I64Sub => some (60, ⟨1⟩)
    | .plain .I64Mul => some (61, ⟨1⟩)
    | .plain .I64DivS => some (62, ⟨1⟩)
    | .plain .I64DivU => some (63, ⟨1⟩)
    | .plain .I64RemS => some (64, ⟨1⟩)
    | .plain .I64RemU => some (65, ⟨1⟩)
    | .plain .I64And => some (66, ⟨1⟩)
    | .plain .I64Or => some (67, ⟨1⟩)
    | .plain .I64Xor => some (68, ⟨1⟩)
    | .plain .I64Shl => some (69, ⟨1⟩)
    | .plain .I64ShrS => some (70, ⟨1⟩)
    | .plain .I64ShrU => some (71, ⟨1⟩)
    | .plain .I64Rotl => some (72, ⟨1⟩)
    | .plain .I64Rotr => some (73, ⟨1⟩)
    | .plain .F32Abs => some (74, ⟨1⟩)
    | .plain .F32Neg => some (75, ⟨1⟩)
    | .plain .F32Ceil => some (76, ⟨1⟩)
    | .plain .F32Floor => some (77, ⟨1⟩)
    | .plain .F32Trunc => some (78, ⟨1⟩)
    | .plain .F32Nearest => some (79, ⟨1⟩)
    | .plain .F32Sqrt => some (80, ⟨1⟩)
    | .plain .F32Add => some (81, ⟨1⟩)
    | .plain .F32Sub => some (82, ⟨1⟩)
    | .plain .F32Mul => some (83, ⟨1⟩)
    | .plain .F32Div => some (84, ⟨1⟩)
    | .plain .F32Min => some (85, ⟨1⟩)
    | .plain .F32Max => some (86, ⟨1⟩)
    | .plain .F32Copysign => some (87, ⟨1⟩)
    | .plain .F64Abs => some (88, ⟨1⟩)
    | .plain .F64Neg => some (89, ⟨1⟩)
    | .plain .F64Ceil => some (90, ⟨1⟩)
    | .plain .F64Floor => some (91, ⟨1⟩)
    | .plain .F64Trunc => some (92, ⟨1⟩)
    | .plain .F64Nearest => some (93, ⟨1⟩)
    | .plain .F64Sqrt => some (94, ⟨1⟩)
    | .plain .F64Add => some (95, ⟨1⟩)
    | .plain .F64Sub => some (96, ⟨1⟩)
    | .plain .F64Mul => some (97, ⟨1⟩)
    | .plain .F64Div => some (98, ⟨1⟩)
    | .plain .F64Min => some (99, ⟨1⟩)
    | .plain .F64Max => some (100, ⟨1⟩)
    | .plain .F64Copysign => some (101, ⟨1⟩)
    | .plain .I32WrapI64 => some (102, ⟨1⟩)
    | .plain .I32TruncF32S => some (103, ⟨1⟩)
    | .plain .I32TruncF32U => some (104, ⟨1⟩)
    | .plain .I32TruncF64S => some (105, ⟨1⟩)
    | .plain .I32TruncF64U => some (106, ⟨1⟩)
    | .plain .I64ExtendI32S => some (107, ⟨1⟩)
    | .plain .I64ExtendI32U => some (108, ⟨1⟩)
    | .plain .I64TruncF32S => some (109, ⟨1⟩)
    | .plain .I64TruncF32U => some (110, ⟨1⟩)
    | .plain .I64TruncF64S => some (111, ⟨1⟩)
    | .plain .I64TruncF64U => some (112, ⟨1⟩)
    | .plain .F32ConvertI32S => some (113, ⟨1⟩)
    | .plain .F32ConvertI32U => some (114, ⟨1⟩)
    | .plain .F32ConvertI64S => some (115, ⟨1⟩)
    | .plain .F32ConvertI64U => some (116, ⟨1⟩)
    | .plain .F32DemoteF64 => some (117, ⟨1⟩)
    | .plain .F64ConvertI32S => some (118, ⟨1⟩)
    | .plain .F64ConvertI32U => some (119, ⟨1⟩)
    | .plain .F64ConvertI64S => some (120, ⟨1⟩)
    | .plain .F64ConvertI64U => some (121, ⟨1⟩)
    | .plain .F64PromoteF32 => some (122, ⟨1⟩)
    | .plain .I32ReinterpretF32 => some (123, ⟨1⟩)
    | .plain .I64ReinterpretF64 => some (124, ⟨1⟩)
    | .plain .F32ReinterpretI32 => some (125, ⟨1⟩)
    | .plain .F64ReinterpretI64 => some (126, ⟨1⟩)
    | .plain .I32Extend8S => some (127, ⟨1⟩)
    | .plain .I32Extend16S => some (128, ⟨1⟩)
    | .plain .I64Extend8S => some (129, ⟨1⟩)
    | .plain .I64Extend16S => some (130, ⟨1⟩)
    | .plain .I64Extend32S => some (131, ⟨1⟩)
    | .plain .I32TruncSatF32S => some (132, ⟨1⟩)
    | .plain .I32TruncSatF32U => some (133, ⟨1⟩)
    | .plain .I32TruncSatF64S => some (134, ⟨1⟩)
    | .plain .I32TruncSatF64U => some (135, ⟨1⟩)
    | .plain .I64TruncSatF32S => some (136, ⟨1⟩)
    | .plain .I64TruncSatF32U => some (137, ⟨1⟩)
    | .plain .I64TruncSatF64S => some (138, ⟨1⟩)
    | .plain .I64TruncSatF64U => some (139, ⟨1⟩)
    | _ => none

example : onOk [0, 97, 115, 109, 1, 0, 0, 0, 1, 4, 1, 96, 0, 0, 3, 11, 10, 0, 0, 0, 0, 0, 0, 0, 0, 0, 0, 7, 11,
        1, 7, 117, 115, 101, 95, 97, 108, 108, 0, 9, 10, 197, 9, 10, 24, 0, 65, 1, 26, 66, 1, 26,
        67, 0, 0, 128, 63, 26, 68, 0, 0, 0, 0, 0, 0, 240, 63, 26, 11, 194, 2, 0, 65, 0, 69, 26,
        65, 1, 65, 1, 70, 26, 65, 1, 65, 0, 71, 26, 65, 127, 65, 1, 72, 26, 65, 1, 65, 2, 73, 26,
        65, 2, 65, 1, 74, 26, 65, 2, 65, 1, 75, 26, 65, 127, 65, 127, 76, 26, 65, 1, 65, 2, 77,
        26, 65, 127, 65, 127, 78, 26, 65, 2, 65, 1, 79, 26, 66, 0, 80, 26, 66, 1, 66, 1, 81, 26,
        66, 1, 66, 0, 82, 26, 66, 127, 66, 1, 83, 26, 66, 1, 66, 2, 84, 26, 66, 2, 66, 1, 85, 26,
        66, 2, 66, 1, 86, 26, 66, 127, 66, 127, 87, 26, 66, 1, 66, 2, 88, 26, 66, 127, 66, 127,
        89, 26, 66, 2, 66, 1, 90, 26, 67, 0, 0, 128, 63, 67, 0, 0, 128, 63, 91, 26, 67, 0, 0, 128,
        63, 67, 0, 0, 0, 0, 92, 26, 67, 0, 0, 128, 63, 67, 0, 0, 0, 64, 93, 26, 67, 0, 0, 0, 64,
        67, 0, 0, 128, 63, 94, 26, 67, 0, 0, 128, 63, 67, 0, 0, 0, 64, 95, 26, 67, 0, 0, 0, 64,
        67, 0, 0, 128, 63, 96, 26, 68, 0, 0, 0, 0, 0, 0, 240, 63, 68, 0, 0, 0, 0, 0, 0, 240, 63,
        97, 26, 68, 0, 0, 0, 0, 0, 0, 240, 63, 68, 0, 0, 0, 0, 0, 0, 0, 0, 98, 26, 68, 0, 0, 0, 0,
        0, 0, 240, 63, 68, 0, 0, 0, 0, 0, 0, 0, 64, 99, 26, 68, 0, 0, 0, 0, 0, 0, 0, 64, 68, 0, 0,
        0, 0, 0, 0, 240, 63, 100, 26, 68, 0, 0, 0, 0, 0, 0, 240, 63, 68, 0, 0, 0, 0, 0, 0, 0, 64,
        101, 26, 68, 0, 0, 0, 0, 0, 0, 0, 64, 68, 0, 0, 0, 0, 0, 0, 240, 63, 102, 26, 11, 105, 0,
        65, 8, 103, 26, 65, 8, 104, 26, 65, 255, 1, 105, 26, 65, 1, 65, 2, 106, 26, 65, 3, 65, 1,
        107, 26, 65, 3, 65, 4, 108, 26, 65, 7, 65, 2, 109, 26, 65, 7, 65, 2, 110, 26, 65, 7, 65,
        3, 111, 26, 65, 7, 65, 3, 112, 26, 65, 6, 65, 3, 113, 26, 65, 1, 65, 2, 114, 26, 65, 1,
        65, 3, 115, 26, 65, 1, 65, 2, 116, 26, 65, 120, 65, 1, 117, 26, 65, 8, 65, 1, 118, 26, 65,
        1, 65, 2, 119, 26, 65, 1, 65, 2, 120, 26, 11, 105, 0, 66, 8, 121, 26, 66, 8, 122, 26, 66,
        255, 1, 123, 26, 66, 1, 66, 2, 124, 26, 66, 3, 66, 1, 125, 26, 66, 3, 66, 4, 126, 26, 66,
        7, 66, 2, 127, 26, 66, 7, 66, 2, 128, 26, 66, 7, 66, 3, 129, 26, 66, 7, 66, 3, 130, 26,
        66, 6, 66, 3, 131, 26, 66, 1, 66, 2, 132, 26, 66, 1, 66, 3, 133, 26, 66, 1, 66, 2, 134,
        26, 66, 120, 66, 1, 135, 26, 66, 8, 66, 1, 136, 26, 66, 1, 66, 2, 137, 26, 66, 1, 66, 2,
        138, 26, 11, 135, 1, 0, 67, 0, 0, 128, 191, 139, 26, 67, 0, 0, 128, 63, 140, 26, 67, 154,
        153, 153, 63, 141, 26, 67, 102, 102, 230, 63, 142, 26, 67, 154, 153, 217, 63, 143, 26, 67,
        102, 102, 166, 63, 144, 26, 67, 0, 0, 128, 64, 145, 26, 67, 0, 0, 128, 63, 67, 0, 0, 0,
        64, 146, 26, 67, 0, 0, 64, 64, 67, 0, 0, 128, 63, 147, 26, 67, 0, 0, 0, 64, 67, 0, 0, 64,
        64, 148, 26, 67, 0, 0, 192, 64, 67, 0, 0, 0, 64, 149, 26, 67, 0, 0, 128, 63, 67, 0, 0, 0,
        64, 150, 26, 67, 0, 0, 128, 63, 67, 0, 0, 0, 64, 151, 26, 67, 0, 0, 128, 63, 67, 0, 0, 0,
        192, 152, 26, 11, 219, 1, 0, 68, 0, 0, 0, 0, 0, 0, 240, 191, 153, 26, 68, 0, 0, 0, 0, 0,
        0, 240, 63, 154, 26, 68, 51, 51, 51, 51, 51, 51, 243, 63, 155, 26, 68, 205, 204, 204, 204,
        204, 204, 252, 63, 156, 26, 68, 51, 51, 51, 51, 51, 51, 251, 63, 157, 26, 68, 205, 204,
        204, 204, 204, 204, 244, 63, 158, 26, 68, 0, 0, 0, 0, 0, 0, 16, 64, 159, 26, 68, 0, 0, 0,
        0, 0, 0, 240, 63, 68, 0, 0, 0, 0, 0, 0, 0, 64, 160, 26, 68, 0, 0, 0, 0, 0, 0, 8, 64, 68,
        0, 0, 0, 0, 0, 0, 240, 63, 161, 26, 68, 0, 0, 0, 0, 0, 0, 0, 64, 68, 0, 0, 0, 0, 0, 0, 8,
        64, 162, 26, 68, 0, 0, 0, 0, 0, 0, 24, 64, 68, 0, 0, 0, 0, 0, 0, 0, 64, 163, 26, 68, 0, 0,
        0, 0, 0, 0, 240, 63, 68, 0, 0, 0, 0, 0, 0, 0, 64, 164, 26, 68, 0, 0, 0, 0, 0, 0, 240, 63,
        68, 0, 0, 0, 0, 0, 0, 0, 64, 165, 26, 68, 0, 0, 0, 0, 0, 0, 240, 63, 68, 0, 0, 0, 0, 0, 0,
        0, 192, 166, 26, 11, 136, 1, 0, 66, 42, 167, 26, 67, 0, 0, 96, 64, 168, 26, 67, 0, 0, 96,
        64, 169, 26, 68, 0, 0, 0, 0, 0, 0, 12, 192, 170, 26, 68, 0, 0, 0, 0, 0, 0, 12, 64, 171,
        26, 65, 127, 172, 26, 65, 1, 173, 26, 67, 0, 0, 96, 192, 174, 26, 67, 0, 0, 96, 64, 175,
        26, 68, 0, 0, 0, 0, 0, 0, 12, 192, 176, 26, 68, 0, 0, 0, 0, 0, 0, 12, 64, 177, 26, 65,
        127, 178, 26, 65, 1, 179, 26, 66, 127, 180, 26, 66, 1, 181, 26, 68, 0, 0, 0, 0, 0, 0, 18,
        64, 182, 26, 65, 127, 183, 26, 65, 1, 184, 26, 66, 127, 185, 26, 66, 1, 186, 26, 67, 0, 0,
        32, 64, 187, 26, 11, 58, 0, 67, 0, 0, 128, 63, 188, 26, 68, 0, 0, 0, 0, 0, 0, 240, 63,
        189, 26, 65, 1, 190, 26, 66, 1, 191, 26, 65, 128, 1, 192, 26, 65, 128, 128, 2, 193, 26,
        66, 128, 1, 194, 26, 66, 128, 128, 2, 195, 26, 66, 128, 128, 128, 128, 8, 196, 26, 11, 82,
        0, 67, 0, 0, 96, 192, 252, 0, 26, 67, 0, 0, 96, 64, 252, 1, 26, 68, 0, 0, 0, 0, 0, 0, 12,
        192, 252, 2, 26, 68, 0, 0, 0, 0, 0, 0, 12, 64, 252, 3, 26, 67, 0, 0, 96, 192, 252, 4, 26,
        67, 0, 0, 96, 64, 252, 5, 26, 68, 0, 0, 0, 0, 0, 0, 12, 192, 252, 6, 26, 68, 0, 0, 0, 0,
        0, 0, 12, 64, 252, 7, 26, 11, 20, 0, 16, 0, 16, 1, 16, 2, 16, 3, 16, 4, 16, 5, 16, 6, 16,
        7, 16, 8, 11]
    (fun m => let seen := (m.funcs.flatMap (·.body)).filterMap kind_it_decodes_numeric_instructions
      (List.range 140).all (fun k => seen.any (fun p => p.1 == k)) &&
      seen.all (fun p => same p.2 ⟨1⟩)) = true := by decide +kernel

/-- tests/tests.rs:3078 `it_decodes_relaxed_simd_instructions`, input tests/fixtures/relaxed_simd_instructions.wasm -/
example : onOk [0, 97, 115, 109, 1, 0, 0, 0, 1, 4, 1, 96, 0, 0, 3, 2, 1, 0, 10, 237, 1, 1, 234, 1, 1, 3, 123,
        253, 12, 0, 1, 2, 3, 4, 5, 6, 7, 8, 9, 10, 11, 12, 13, 14, 15, 33, 0, 253, 12, 16, 17, 18,
        19, 20, 21, 22, 23, 24, 25, 26, 27, 28, 29, 30, 31, 33, 1, 253, 12, 32, 33, 34, 35, 36,
        37, 38, 39, 40, 41, 42, 43, 44, 45, 46, 47, 33, 2, 32, 0, 32, 1, 253, 128, 2, 26, 32, 0,
        32, 1, 32, 2, 253, 137, 2, 26, 32, 0, 32, 1, 32, 2, 253, 138, 2, 26, 32, 0, 32, 1, 32, 2,
        253, 139, 2, 26, 32, 0, 32, 1, 32, 2, 253, 140, 2, 26, 32, 0, 32, 1, 253, 145, 2, 26, 32,
        0, 32, 1, 253, 146, 2, 26, 32, 0, 32, 1, 32, 2, 253, 147, 2, 26, 32, 0, 32, 1, 253, 141,
        2, 26, 32, 0, 32, 1, 253, 142, 2, 26, 32, 0, 32, 1, 32, 2, 253, 133, 2, 26, 32, 0, 32, 1,
        32, 2, 253, 134, 2, 26, 32, 0, 32, 1, 253, 143, 2, 26, 32, 0, 32, 1, 253, 144, 2, 26, 32,
        0, 32, 1, 32, 2, 253, 135, 2, 26, 32, 0, 32, 1, 32, 2, 253, 136, 2, 26, 32, 0, 253, 129,
        2, 26, 32, 0, 253, 130, 2, 26, 32, 0, 253, 131, 2, 26, 32, 0, 253, 132, 2, 26, 11]
    (fun m => same m.funcs.length 1 && same m.funcs[0]!.locals (List.replicate 3 (.Vec .V128)) &&
      same (m.funcs[0]!.body.filterMap (fun i => match i with
        | .plain .I8x16RelaxedSwizzle => some PlainOp.I8x16RelaxedSwizzle
        | .plain .I8x16RelaxedLaneSelect => some PlainOp.I8x16RelaxedLaneSelect
        | .plain .I16x8RelaxedLaneSelect => some PlainOp.I16x8RelaxedLaneSelect
        | .plain .I32x4RelaxedLaneSelect => some PlainOp.I32x4RelaxedLaneSelect
        | .plain .I64x2RelaxedLaneSelect => some PlainOp.I64x2RelaxedLaneSelect
        | .plain .I16x8RelaxedQ15MulrS => some PlainOp.I16x8RelaxedQ15MulrS
        | .plain .I16x8RelaxedDotSI8x16 => some PlainOp.I16x8RelaxedDotSI8x16
        | .plain .I32x4RelaxedDotAddSI16x8 => some PlainOp.I32x4RelaxedDotAddSI16x8
        | .plain .F32x4RelaxedMin => some PlainOp.F32x4RelaxedMin
        | .plain .F32x4RelaxedMax => some PlainOp.F32x4RelaxedMax
        | .plain .F32x4RelaxedMAdd => some PlainOp.F32x4RelaxedMAdd
        | .plain .F32x4RelaxedNMAdd => some PlainOp.F32x4RelaxedNMAdd
        | .plain .F64x2RelaxedMin => some PlainOp.F64x2RelaxedMin
        | .plain .F64x2RelaxedMax => some PlainOp.F64x2RelaxedMax
        | .plain .F64x2RelaxedMAdd => some PlainOp.F64x2RelaxedMAdd
        | .plain .F64x2RelaxedNMAdd => some PlainOp.F64x2RelaxedNMAdd
        | .plain .I32x4RelaxedTruncF32x4S => some PlainOp.I32x4RelaxedTruncF32x4S
        | .plain .I32x4RelaxedTruncF32x4U => some PlainOp.I32x4RelaxedTruncF32x4U
        | .plain .I32x4RelaxedTruncF64x2SZero => some PlainOp.I32x4RelaxedTruncF64x2SZero
        | .plain .I32x4RelaxedTruncF64x2UZero => some PlainOp.I32x4RelaxedTruncF64x2UZero
        | _ => none))
        [PlainOp.I8x16RelaxedSwizzle, PlainOp.I8x16RelaxedLaneSelect,
        PlainOp.I16x8RelaxedLaneSelect, PlainOp.I32x4RelaxedLaneSelect,
        PlainOp.I64x2RelaxedLaneSelect, PlainOp.I16x8RelaxedQ15MulrS,
        PlainOp.I16x8RelaxedDotSI8x16, PlainOp.I32x4RelaxedDotAddSI16x8,
        PlainOp.F32x4RelaxedMin, PlainOp.F32x4RelaxedMax,
        PlainOp.F32x4RelaxedMAdd, PlainOp.F32x4RelaxedNMAdd,
        PlainOp.F64x2RelaxedMin, PlainOp.F64x2RelaxedMax,
        PlainOp.F64x2RelaxedMAdd, PlainOp.F64x2RelaxedNMAdd,
        PlainOp.I32x4RelaxedTruncF32x4S, PlainOp.I32x4RelaxedTruncF32x4U,
        PlainOp.I32x4RelaxedTruncF64x2SZero, PlainOp.I32x4RelaxedTruncF64x2UZero]) = true := by decide +kernel

end Wadec.Check
