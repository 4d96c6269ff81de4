import Verif.Core.Syntax

/-! Generated by tools/gen_tables.py from `Instruction::parse` (src/decode/instructions.rs:203-1012):
for each instruction family the arms `opcode => Instruction::Name...` in source order. -/

namespace Wadec

/-- src/decode/instructions.rs:212-654 -/
def plainByteTable : List (UInt8 × PlainOp) :=
  [(0x00, .Unreachable), (0x01, .Nop), (0x1A, .Drop), (0x0A, .ThrowRef),
   (0x0F, .Return), (0xD1, .RefIsNull), (0xD3, .RefEq), (0xD4, .RefAsNonNull),
   (0x45, .I32Eqz), (0x46, .I32Eq), (0x47, .I32Ne), (0x48, .I32LtS),
   (0x49, .I32LtU), (0x4A, .I32GtS), (0x4B, .I32GtU), (0x4C, .I32LeS),
   (0x4D, .I32LeU), (0x4E, .I32GeS), (0x4F, .I32GeU), (0x50, .I64Eqz),
   (0x51, .I64Eq), (0x52, .I64Ne), (0x53, .I64LtS), (0x54, .I64LtU),
   (0x55, .I64GtS), (0x56, .I64GtU), (0x57, .I64LeS), (0x58, .I64LeU),
   (0x59, .I64GeS), (0x5A, .I64GeU), (0x5B, .F32Eq), (0x5C, .F32Ne),
   (0x5D, .F32Lt), (0x5E, .F32Gt), (0x5F, .F32Le), (0x60, .F32Ge),
   (0x61, .F64Eq), (0x62, .F64Ne), (0x63, .F64Lt), (0x64, .F64Gt),
   (0x65, .F64Le), (0x66, .F64Ge), (0x67, .I32Clz), (0x68, .I32Ctz),
   (0x69, .I32Popcnt), (0x6A, .I32Add), (0x6B, .I32Sub), (0x6C, .I32Mul),
   (0x6D, .I32DivS), (0x6E, .I32DivU), (0x6F, .I32RemS), (0x70, .I32RemU),
   (0x71, .I32And), (0x72, .I32Or), (0x73, .I32Xor), (0x74, .I32Shl),
   (0x75, .I32ShrS), (0x76, .I32ShrU), (0x77, .I32Rotl), (0x78, .I32Rotr),
   (0x79, .I64Clz), (0x7A, .I64Ctz), (0x7B, .I64Popcnt), (0x7C, .I64Add),
   (0x7D, .I64Sub), (0x7E, .I64Mul), (0x7F, .I64DivS), (0x80, .I64DivU),
   (0x81, .I64RemS), (0x82, .I64RemU), (0x83, .I64And), (0x84, .I64Or),
   (0x85, .I64Xor), (0x86, .I64Shl), (0x87, .I64ShrS), (0x88, .I64ShrU),
   (0x89, .I64Rotl), (0x8A, .I64Rotr), (0x8B, .F32Abs), (0x8C, .F32Neg),
   (0x8D, .F32Ceil), (0x8E, .F32Floor), (0x8F, .F32Trunc), (0x90, .F32Nearest),
   (0x91, .F32Sqrt), (0x92, .F32Add), (0x93, .F32Sub), (0x94, .F32Mul),
   (0x95, .F32Div), (0x96, .F32Min), (0x97, .F32Max), (0x98, .F32Copysign),
   (0x99, .F64Abs), (0x9A, .F64Neg), (0x9B, .F64Ceil), (0x9C, .F64Floor),
   (0x9D, .F64Trunc), (0x9E, .F64Nearest), (0x9F, .F64Sqrt), (0xA0, .F64Add),
   (0xA1, .F64Sub), (0xA2, .F64Mul), (0xA3, .F64Div), (0xA4, .F64Min),
   (0xA5, .F64Max), (0xA6, .F64Copysign), (0xA7, .I32WrapI64), (0xA8, .I32TruncF32S),
   (0xA9, .I32TruncF32U), (0xAA, .I32TruncF64S), (0xAB, .I32TruncF64U), (0xAC, .I64ExtendI32S),
   (0xAD, .I64ExtendI32U), (0xAE, .I64TruncF32S), (0xAF, .I64TruncF32U), (0xB0, .I64TruncF64S),
   (0xB1, .I64TruncF64U), (0xB2, .F32ConvertI32S), (0xB3, .F32ConvertI32U), (0xB4, .F32ConvertI64S),
   (0xB5, .F32ConvertI64U), (0xB6, .F32DemoteF64), (0xB7, .F64ConvertI32S), (0xB8, .F64ConvertI32U),
   (0xB9, .F64ConvertI64S), (0xBA, .F64ConvertI64U), (0xBB, .F64PromoteF32), (0xBC, .I32ReinterpretF32),
   (0xBD, .I64ReinterpretF64), (0xBE, .F32ReinterpretI32), (0xBF, .F64ReinterpretI64), (0xC0, .I32Extend8S),
   (0xC1, .I32Extend16S), (0xC2, .I64Extend8S), (0xC3, .I64Extend16S), (0xC4, .I64Extend32S)]

/-- src/decode/instructions.rs:394-417, after the prefix 0xFB -/
def plainFBTable : List (UInt32 × PlainOp) :=
  [(15, .ArrayLen), (26, .AnyConvertExtern), (27, .ExternConvertAny), (28, .RefI31),
   (29, .I31GetS), (30, .I31GetU)]

/-- src/decode/instructions.rs:659-666, after the prefix 0xFC -/
def plainFCTable : List (UInt32 × PlainOp) :=
  [(0, .I32TruncSatF32S), (1, .I32TruncSatF32U), (2, .I32TruncSatF64S), (3, .I32TruncSatF64U),
   (4, .I64TruncSatF32S), (5, .I64TruncSatF32U), (6, .I64TruncSatF64S), (7, .I64TruncSatF64U)]

/-- src/decode/instructions.rs:783-1004, after the prefix 0xFD -/
def plainFDTable : List (UInt32 × PlainOp) :=
  [(14, .I8x16Swizzle), (256, .I8x16RelaxedSwizzle), (15, .I8x16Splat), (16, .I16x8Splat),
   (17, .I32x4Splat), (18, .I64x2Splat), (19, .F32x4Splat), (20, .F64x2Splat),
   (35, .I8x16Eq), (36, .I8x16Ne), (37, .I8x16LtS), (38, .I8x16LtU),
   (39, .I8x16GtS), (40, .I8x16GtU), (41, .I8x16LeS), (42, .I8x16LeU),
   (43, .I8x16GeS), (44, .I8x16GeU), (45, .I16x8Eq), (46, .I16x8Ne),
   (47, .I16x8LtS), (48, .I16x8LtU), (49, .I16x8GtS), (50, .I16x8GtU),
   (51, .I16x8LeS), (52, .I16x8LeU), (53, .I16x8GeS), (54, .I16x8GeU),
   (55, .I32x4Eq), (56, .I32x4Ne), (57, .I32x4LtS), (58, .I32x4LtU),
   (59, .I32x4GtS), (60, .I32x4GtU), (61, .I32x4LeS), (62, .I32x4LeU),
   (63, .I32x4GeS), (64, .I32x4GeU), (65, .F32x4Eq), (66, .F32x4Ne),
   (67, .F32x4Lt), (68, .F32x4Gt), (69, .F32x4Le), (70, .F32x4Ge),
   (71, .F64x2Eq), (72, .F64x2Ne), (73, .F64x2Lt), (74, .F64x2Gt),
   (75, .F64x2Le), (76, .F64x2Ge), (77, .V128Not), (78, .V128And),
   (79, .V128AndNot), (80, .V128Or), (81, .V128Xor), (82, .V128Bitselect),
   (265, .I8x16RelaxedLaneSelect), (266, .I16x8RelaxedLaneSelect), (267, .I32x4RelaxedLaneSelect), (268, .I64x2RelaxedLaneSelect),
   (83, .V128AnyTrue), (96, .I8x16Abs), (97, .I8x16Neg), (98, .I8x16Popcnt),
   (99, .I8x16AllTrue), (100, .I8x16Bitmask), (101, .I8x16NarrowI16x8S), (102, .I8x16NarrowI16x8U),
   (107, .I8x16Shl), (108, .I8x16ShrS), (109, .I8x16ShrU), (110, .I8x16Add),
   (111, .I8x16AddSatS), (112, .I8x16AddSatU), (113, .I8x16Sub), (114, .I8x16SubSatS),
   (115, .I8x16SubSatU), (118, .I8x16MinS), (119, .I8x16MinU), (120, .I8x16MaxS),
   (121, .I8x16MaxU), (123, .I8x16AvgrU), (124, .I16x8ExtaddPairwiseI8x16S), (125, .I16x8ExtaddPairwiseI8x16U),
   (126, .I32x4ExtaddPairwiseI16x8S), (127, .I32x4ExtaddPairwiseI16x8U), (128, .I16x8Abs), (129, .I16x8Neg),
   (130, .I16x8Q15MulrSatS), (131, .I16x8AllTrue), (132, .I16x8Bitmask), (133, .I16x8NarrowI32x4S),
   (134, .I16x8NarrowI32x4U), (135, .I16x8ExtendLowI8x16S), (136, .I16x8ExtendHighI8x16S), (137, .I16x8ExtendLowI8x16U),
   (138, .I16x8ExtendHighI8x16U), (139, .I16x8Shl), (140, .I16x8ShrS), (141, .I16x8ShrU),
   (142, .I16x8Add), (143, .I16x8AddSatS), (144, .I16x8AddSatU), (145, .I16x8Sub),
   (146, .I16x8SubSatS), (147, .I16x8SubSatU), (149, .I16x8Mul), (150, .I16x8MinS),
   (151, .I16x8MinU), (152, .I16x8MaxS), (153, .I16x8MaxU), (155, .I16x8AvgrU),
   (273, .I16x8RelaxedQ15MulrS), (156, .I16x8ExtmulLowI8x16S), (157, .I16x8ExtmulHighI8x16S), (158, .I16x8ExtmulLowI8x16U),
   (159, .I16x8ExtmulHighI8x16U), (274, .I16x8RelaxedDotSI8x16), (275, .I32x4RelaxedDotAddSI16x8), (160, .I32x4Abs),
   (161, .I32x4Neg), (163, .I32x4AllTrue), (164, .I32x4Bitmask), (167, .I32x4ExtendLowI16x8S),
   (168, .I32x4ExtendHighI16x8S), (169, .I32x4ExtendLowI16x8U), (170, .I32x4ExtendHighI16x8U), (171, .I32x4Shl),
   (172, .I32x4ShrS), (173, .I32x4ShrU), (174, .I32x4Add), (177, .I32x4Sub),
   (181, .I32x4Mul), (182, .I32x4MinS), (183, .I32x4MinU), (184, .I32x4MaxS),
   (185, .I32x4MaxU), (186, .I32x4DotI16x8S), (188, .I32x4ExtmulLowI16x8S), (189, .I32x4ExtmulHighI16x8S),
   (190, .I32x4ExtmulLowI16x8U), (191, .I32x4ExtmulHighI16x8U), (192, .I64x2Abs), (193, .I64x2Neg),
   (195, .I64x2AllTrue), (196, .I64x2Bitmask), (199, .I64x2ExtendLowI32x4S), (200, .I64x2ExtendHighI32x4S),
   (201, .I64x2ExtendLowI32x4U), (202, .I64x2ExtendHighI32x4U), (203, .I64x2Shl), (204, .I64x2ShrS),
   (205, .I64x2ShrU), (206, .I64x2Add), (209, .I64x2Sub), (213, .I64x2Mul),
   (214, .I64x2Eq), (215, .I64x2Ne), (216, .I64x2LtS), (217, .I64x2GtS),
   (218, .I64x2LeS), (219, .I64x2GeS), (220, .I64x2ExtmulLowI32x4S), (221, .I64x2ExtmulHighI32x4S),
   (222, .I64x2ExtmulLowI32x4U), (223, .I64x2ExtmulHighI32x4U), (103, .F32x4Ceil), (104, .F32x4Floor),
   (105, .F32x4Trunc), (106, .F32x4Nearest), (224, .F32x4Abs), (225, .F32x4Neg),
   (227, .F32x4Sqrt), (228, .F32x4Add), (229, .F32x4Sub), (230, .F32x4Mul),
   (231, .F32x4Div), (232, .F32x4Min), (233, .F32x4Max), (234, .F32x4PMin),
   (235, .F32x4PMax), (269, .F32x4RelaxedMin), (270, .F32x4RelaxedMax), (271, .F64x2RelaxedMin),
   (272, .F64x2RelaxedMax), (261, .F32x4RelaxedMAdd), (262, .F32x4RelaxedNMAdd), (263, .F64x2RelaxedMAdd),
   (264, .F64x2RelaxedNMAdd), (116, .F64x2Ceil), (117, .F64x2Floor), (122, .F64x2Trunc),
   (148, .F64x2Nearest), (236, .F64x2Abs), (237, .F64x2Neg), (239, .F64x2Sqrt),
   (240, .F64x2Add), (241, .F64x2Sub), (242, .F64x2Mul), (243, .F64x2Div),
   (244, .F64x2Min), (245, .F64x2Max), (246, .F64x2PMin), (247, .F64x2PMax),
   (248, .I32x4TruncSatF32x4S), (249, .I32x4TruncSatF32x4U), (250, .F32x4ConvertI32x4S), (251, .F32x4ConvertI32x4U),
   (252, .I32x4TruncSatF64x2SZero), (253, .I32x4TruncSatF64x2UZero), (254, .F64x2ConvertLowI32x4S), (255, .F64x2ConvertLowI32x4U),
   (257, .I32x4RelaxedTruncF32x4S), (258, .I32x4RelaxedTruncF32x4U), (259, .I32x4RelaxedTruncF64x2SZero), (260, .I32x4RelaxedTruncF64x2UZero),
   (94, .F32x4DemoteF64x2Zero), (95, .F64x2PromoteLowF32x4)]

/-- src/decode/instructions.rs:488-510 -/
def memTable : List (UInt8 × MemOp) :=
  [(0x28, .I32Load), (0x29, .I64Load), (0x2A, .F32Load), (0x2B, .F64Load),
   (0x2C, .I32Load8s), (0x2D, .I32Load8u), (0x2E, .I32Load16s), (0x2F, .I32Load16u),
   (0x30, .I64Load8s), (0x31, .I64Load8u), (0x32, .I64Load16s), (0x33, .I64Load16u),
   (0x34, .I64Load32s), (0x35, .I64Load32u), (0x36, .I32Store), (0x37, .I64Store),
   (0x38, .F32Store), (0x39, .F64Store), (0x3A, .I32Store8), (0x3B, .I32Store16),
   (0x3C, .I64Store8), (0x3D, .I64Store16), (0x3E, .I64Store32)]

/-- src/decode/instructions.rs:717-730, after the prefix 0xFD -/
def memFDTable : List (UInt32 × MemOp) :=
  [(0, .V128Load), (1, .V128Load8x8S), (2, .V128Load8x8U), (3, .V128Load16x4S),
   (4, .V128Load16x4U), (5, .V128Load32x2S), (6, .V128Load32x2U), (7, .V128Load8Splat),
   (8, .V128Load16Splat), (9, .V128Load32Splat), (10, .V128Load64Splat), (92, .V128Load32Zero),
   (93, .V128Load64Zero), (11, .V128Store)]

/-- src/decode/instructions.rs:738-745, after the prefix 0xFD -/
def memLaneFDTable : List (UInt32 × MemLaneOp) :=
  [(84, .V128Load8Lane), (85, .V128Load16Lane), (86, .V128Load32Lane), (87, .V128Load64Lane),
   (88, .V128Store8Lane), (89, .V128Store16Lane), (90, .V128Store32Lane), (91, .V128Store64Lane)]

/-- src/decode/instructions.rs:766-779, after the prefix 0xFD -/
def laneFDTable : List (UInt32 × LaneOp) :=
  [(21, .I8x16ExtractLaneS), (22, .I8x16ExtractLaneU), (23, .I8x16ReplaceLane), (24, .I16x8ExtractLaneS),
   (25, .I16x8ExtractLaneU), (26, .I16x8ReplaceLane), (27, .I32x4ExtractLane), (28, .I32x4ReplaceLane),
   (29, .I64x2ExtractLane), (30, .I64x2ReplaceLane), (31, .F32x4ExtractLane), (32, .F32x4ReplaceLane),
   (33, .F64x2ExtractLane), (34, .F64x2ReplaceLane)]

end Wadec
