import Verif.Core.Ops

/-! Generated by tools/gen_spec_ops.py from tools/spec_opcodes.txt: the opcode of each instruction
according to the WebAssembly 3.0 specification (appendix "Index of Instructions").  This table was
written down independently of /repo. -/

namespace Wadec.Spec

/-- An opcode: a single byte, or one of the prefix bytes 0xFB, 0xFC, 0xFD followed by a number
encoded as a `u32`. -/
inductive Opcode where
  | byte (b : UInt8)
  | fb (n : Nat)
  | fc (n : Nat)
  | fd (n : Nat)
  deriving DecidableEq, Repr

/-- Opcodes of the instructions without immediates. -/
def opcodeOfPlainOp : PlainOp → Opcode
  | .Unreachable => .byte 0x00    -- unreachable
  | .Nop => .byte 0x01    -- nop
  | .ThrowRef => .byte 0x0A    -- throw_ref
  | .Return => .byte 0x0F    -- return
  | .Drop => .byte 0x1A    -- drop
  | .I32Eqz => .byte 0x45    -- i32.eqz
  | .I32Eq => .byte 0x46    -- i32.eq
  | .I32Ne => .byte 0x47    -- i32.ne
  | .I32LtS => .byte 0x48    -- i32.lt_s
  | .I32LtU => .byte 0x49    -- i32.lt_u
  | .I32GtS => .byte 0x4A    -- i32.gt_s
  | .I32GtU => .byte 0x4B    -- i32.gt_u
  | .I32LeS => .byte 0x4C    -- i32.le_s
  | .I32LeU => .byte 0x4D    -- i32.le_u
  | .I32GeS => .byte 0x4E    -- i32.ge_s
  | .I32GeU => .byte 0x4F    -- i32.ge_u
  | .I64Eqz => .byte 0x50    -- i64.eqz
  | .I64Eq => .byte 0x51    -- i64.eq
  | .I64Ne => .byte 0x52    -- i64.ne
  | .I64LtS => .byte 0x53    -- i64.lt_s
  | .I64LtU => .byte 0x54    -- i64.lt_u
  | .I64GtS => .byte 0x55    -- i64.gt_s
  | .I64GtU => .byte 0x56    -- i64.gt_u
  | .I64LeS => .byte 0x57    -- i64.le_s
  | .I64LeU => .byte 0x58    -- i64.le_u
  | .I64GeS => .byte 0x59    -- i64.ge_s
  | .I64GeU => .byte 0x5A    -- i64.ge_u
  | .F32Eq => .byte 0x5B    -- f32.eq
  | .F32Ne => .byte 0x5C    -- f32.ne
  | .F32Lt => .byte 0x5D    -- f32.lt
  | .F32Gt => .byte 0x5E    -- f32.gt
  | .F32Le => .byte 0x5F    -- f32.le
  | .F32Ge => .byte 0x60    -- f32.ge
  | .F64Eq => .byte 0x61    -- f64.eq
  | .F64Ne => .byte 0x62    -- f64.ne
  | .F64Lt => .byte 0x63    -- f64.lt
  | .F64Gt => .byte 0x64    -- f64.gt
  | .F64Le => .byte 0x65    -- f64.le
  | .F64Ge => .byte 0x66    -- f64.ge
  | .I32Clz => .byte 0x67    -- i32.clz
  | .I32Ctz => .byte 0x68    -- i32.ctz
  | .I32Popcnt => .byte 0x69    -- i32.popcnt
  | .I32Add => .byte 0x6A    -- i32.add
  | .I32Sub => .byte 0x6B    -- i32.sub
  | .I32Mul => .byte 0x6C    -- i32.mul
  | .I32DivS => .byte 0x6D    -- i32.div_s
  | .I32DivU => .byte 0x6E    -- i32.div_u
  | .I32RemS => .byte 0x6F    -- i32.rem_s
  | .I32RemU => .byte 0x70    -- i32.rem_u
  | .I32And => .byte 0x71    -- i32.and
  | .I32Or => .byte 0x72    -- i32.or
  | .I32Xor => .byte 0x73    -- i32.xor
  | .I32Shl => .byte 0x74    -- i32.shl
  | .I32ShrS => .byte 0x75    -- i32.shr_s
  | .I32ShrU => .byte 0x76    -- i32.shr_u
  | .I32Rotl => .byte 0x77    -- i32.rotl
  | .I32Rotr => .byte 0x78    -- i32.rotr
  | .I64Clz => .byte 0x79    -- i64.clz
  | .I64Ctz => .byte 0x7A    -- i64.ctz
  | .I64Popcnt => .byte 0x7B    -- i64.popcnt
  | .I64Add => .byte 0x7C    -- i64.add
  | .I64Sub => .byte 0x7D    -- i64.sub
  | .I64Mul => .byte 0x7E    -- i64.mul
  | .I64DivS => .byte 0x7F    -- i64.div_s
  | .I64DivU => .byte 0x80    -- i64.div_u
  | .I64RemS => .byte 0x81    -- i64.rem_s
  | .I64RemU => .byte 0x82    -- i64.rem_u
  | .I64And => .byte 0x83    -- i64.and
  | .I64Or => .byte 0x84    -- i64.or
  | .I64Xor => .byte 0x85    -- i64.xor
  | .I64Shl => .byte 0x86    -- i64.shl
  | .I64ShrS => .byte 0x87    -- i64.shr_s
  | .I64ShrU => .byte 0x88    -- i64.shr_u
  | .I64Rotl => .byte 0x89    -- i64.rotl
  | .I64Rotr => .byte 0x8A    -- i64.rotr
  | .F32Abs => .byte 0x8B    -- f32.abs
  | .F32Neg => .byte 0x8C    -- f32.neg
  | .F32Ceil => .byte 0x8D    -- f32.ceil
  | .F32Floor => .byte 0x8E    -- f32.floor
  | .F32Trunc => .byte 0x8F    -- f32.trunc
  | .F32Nearest => .byte 0x90    -- f32.nearest
  | .F32Sqrt => .byte 0x91    -- f32.sqrt
  | .F32Add => .byte 0x92    -- f32.add
  | .F32Sub => .byte 0x93    -- f32.sub
  | .F32Mul => .byte 0x94    -- f32.mul
  | .F32Div => .byte 0x95    -- f32.div
  | .F32Min => .byte 0x96    -- f32.min
  | .F32Max => .byte 0x97    -- f32.max
  | .F32Copysign => .byte 0x98    -- f32.copysign
  | .F64Abs => .byte 0x99    -- f64.abs
  | .F64Neg => .byte 0x9A    -- f64.neg
  | .F64Ceil => .byte 0x9B    -- f64.ceil
  | .F64Floor => .byte 0x9C    -- f64.floor
  | .F64Trunc => .byte 0x9D    -- f64.trunc
  | .F64Nearest => .byte 0x9E    -- f64.nearest
  | .F64Sqrt => .byte 0x9F    -- f64.sqrt
  | .F64Add => .byte 0xA0    -- f64.add
  | .F64Sub => .byte 0xA1    -- f64.sub
  | .F64Mul => .byte 0xA2    -- f64.mul
  | .F64Div => .byte 0xA3    -- f64.div
  | .F64Min => .byte 0xA4    -- f64.min
  | .F64Max => .byte 0xA5    -- f64.max
  | .F64Copysign => .byte 0xA6    -- f64.copysign
  | .I32WrapI64 => .byte 0xA7    -- i32.wrap_i64
  | .I32TruncF32S => .byte 0xA8    -- i32.trunc_f32_s
  | .I32TruncF32U => .byte 0xA9    -- i32.trunc_f32_u
  | .I32TruncF64S => .byte 0xAA    -- i32.trunc_f64_s
  | .I32TruncF64U => .byte 0xAB    -- i32.trunc_f64_u
  | .I64ExtendI32S => .byte 0xAC    -- i64.extend_i32_s
  | .I64ExtendI32U => .byte 0xAD    -- i64.extend_i32_u
  | .I64TruncF32S => .byte 0xAE    -- i64.trunc_f32_s
  | .I64TruncF32U => .byte 0xAF    -- i64.trunc_f32_u
  | .I64TruncF64S => .byte 0xB0    -- i64.trunc_f64_s
  | .I64TruncF64U => .byte 0xB1    -- i64.trunc_f64_u
  | .F32ConvertI32S => .byte 0xB2    -- f32.convert_i32_s
  | .F32ConvertI32U => .byte 0xB3    -- f32.convert_i32_u
  | .F32ConvertI64S => .byte 0xB4    -- f32.convert_i64_s
  | .F32ConvertI64U => .byte 0xB5    -- f32.convert_i64_u
  | .F32DemoteF64 => .byte 0xB6    -- f32.demote_f64
  | .F64ConvertI32S => .byte 0xB7    -- f64.convert_i32_s
  | .F64ConvertI32U => .byte 0xB8    -- f64.convert_i32_u
  | .F64ConvertI64S => .byte 0xB9    -- f64.convert_i64_s
  | .F64ConvertI64U => .byte 0xBA    -- f64.convert_i64_u
  | .F64PromoteF32 => .byte 0xBB    -- f64.promote_f32
  | .I32ReinterpretF32 => .byte 0xBC    -- i32.reinterpret_f32
  | .I64ReinterpretF64 => .byte 0xBD    -- i64.reinterpret_f64
  | .F32ReinterpretI32 => .byte 0xBE    -- f32.reinterpret_i32
  | .F64ReinterpretI64 => .byte 0xBF    -- f64.reinterpret_i64
  | .I32Extend8S => .byte 0xC0    -- i32.extend8_s
  | .I32Extend16S => .byte 0xC1    -- i32.extend16_s
  | .I64Extend8S => .byte 0xC2    -- i64.extend8_s
  | .I64Extend16S => .byte 0xC3    -- i64.extend16_s
  | .I64Extend32S => .byte 0xC4    -- i64.extend32_s
  | .RefIsNull => .byte 0xD1    -- ref.is_null
  | .RefEq => .byte 0xD3    -- ref.eq
  | .RefAsNonNull => .byte 0xD4    -- ref.as_non_null
  | .ArrayLen => .fb 15    -- array.len
  | .AnyConvertExtern => .fb 26    -- any.convert_extern
  | .ExternConvertAny => .fb 27    -- extern.convert_any
  | .RefI31 => .fb 28    -- ref.i31
  | .I31GetS => .fb 29    -- i31.get_s
  | .I31GetU => .fb 30    -- i31.get_u
  | .I32TruncSatF32S => .fc 0    -- i32.trunc_sat_f32_s
  | .I32TruncSatF32U => .fc 1    -- i32.trunc_sat_f32_u
  | .I32TruncSatF64S => .fc 2    -- i32.trunc_sat_f64_s
  | .I32TruncSatF64U => .fc 3    -- i32.trunc_sat_f64_u
  | .I64TruncSatF32S => .fc 4    -- i64.trunc_sat_f32_s
  | .I64TruncSatF32U => .fc 5    -- i64.trunc_sat_f32_u
  | .I64TruncSatF64S => .fc 6    -- i64.trunc_sat_f64_s
  | .I64TruncSatF64U => .fc 7    -- i64.trunc_sat_f64_u
  | .I8x16Swizzle => .fd 14    -- i8x16.swizzle
  | .I8x16Splat => .fd 15    -- i8x16.splat
  | .I16x8Splat => .fd 16    -- i16x8.splat
  | .I32x4Splat => .fd 17    -- i32x4.splat
  | .I64x2Splat => .fd 18    -- i64x2.splat
  | .F32x4Splat => .fd 19    -- f32x4.splat
  | .F64x2Splat => .fd 20    -- f64x2.splat
  | .I8x16Eq => .fd 35    -- i8x16.eq
  | .I8x16Ne => .fd 36    -- i8x16.ne
  | .I8x16LtS => .fd 37    -- i8x16.lt_s
  | .I8x16LtU => .fd 38    -- i8x16.lt_u
  | .I8x16GtS => .fd 39    -- i8x16.gt_s
  | .I8x16GtU => .fd 40    -- i8x16.gt_u
  | .I8x16LeS => .fd 41    -- i8x16.le_s
  | .I8x16LeU => .fd 42    -- i8x16.le_u
  | .I8x16GeS => .fd 43    -- i8x16.ge_s
  | .I8x16GeU => .fd 44    -- i8x16.ge_u
  | .I16x8Eq => .fd 45    -- i16x8.eq
  | .I16x8Ne => .fd 46    -- i16x8.ne
  | .I16x8LtS => .fd 47    -- i16x8.lt_s
  | .I16x8LtU => .fd 48    -- i16x8.lt_u
  | .I16x8GtS => .fd 49    -- i16x8.gt_s
  | .I16x8GtU => .fd 50    -- i16x8.gt_u
  | .I16x8LeS => .fd 51    -- i16x8.le_s
  | .I16x8LeU => .fd 52    -- i16x8.le_u
  | .I16x8GeS => .fd 53    -- i16x8.ge_s
  | .I16x8GeU => .fd 54    -- i16x8.ge_u
  | .I32x4Eq => .fd 55    -- i32x4.eq
  | .I32x4Ne => .fd 56    -- i32x4.ne
  | .I32x4LtS => .fd 57    -- i32x4.lt_s
  | .I32x4LtU => .fd 58    -- i32x4.lt_u
  | .I32x4GtS => .fd 59    -- i32x4.gt_s
  | .I32x4GtU => .fd 60    -- i32x4.gt_u
  | .I32x4LeS => .fd 61    -- i32x4.le_s
  | .I32x4LeU => .fd 62    -- i32x4.le_u
  | .I32x4GeS => .fd 63    -- i32x4.ge_s
  | .I32x4GeU => .fd 64    -- i32x4.ge_u
  | .F32x4Eq => .fd 65    -- f32x4.eq
  | .F32x4Ne => .fd 66    -- f32x4.ne
  | .F32x4Lt => .fd 67    -- f32x4.lt
  | .F32x4Gt => .fd 68    -- f32x4.gt
  | .F32x4Le => .fd 69    -- f32x4.le
  | .F32x4Ge => .fd 70    -- f32x4.ge
  | .F64x2Eq => .fd 71    -- f64x2.eq
  | .F64x2Ne => .fd 72    -- f64x2.ne
  | .F64x2Lt => .fd 73    -- f64x2.lt
  | .F64x2Gt => .fd 74    -- f64x2.gt
  | .F64x2Le => .fd 75    -- f64x2.le
  | .F64x2Ge => .fd 76    -- f64x2.ge
  | .V128Not => .fd 77    -- v128.not
  | .V128And => .fd 78    -- v128.and
  | .V128AndNot => .fd 79    -- v128.andnot
  | .V128Or => .fd 80    -- v128.or
  | .V128Xor => .fd 81    -- v128.xor
  | .V128Bitselect => .fd 82    -- v128.bitselect
  | .V128AnyTrue => .fd 83    -- v128.any_true
  | .F32x4DemoteF64x2Zero => .fd 94    -- f32x4.demote_f64x2_zero
  | .F64x2PromoteLowF32x4 => .fd 95    -- f64x2.promote_low_f32x4
  | .I8x16Abs => .fd 96    -- i8x16.abs
  | .I8x16Neg => .fd 97    -- i8x16.neg
  | .I8x16Popcnt => .fd 98    -- i8x16.popcnt
  | .I8x16AllTrue => .fd 99    -- i8x16.all_true
  | .I8x16Bitmask => .fd 100    -- i8x16.bitmask
  | .I8x16NarrowI16x8S => .fd 101    -- i8x16.narrow_i16x8_s
  | .I8x16NarrowI16x8U => .fd 102    -- i8x16.narrow_i16x8_u
  | .F32x4Ceil => .fd 103    -- f32x4.ceil
  | .F32x4Floor => .fd 104    -- f32x4.floor
  | .F32x4Trunc => .fd 105    -- f32x4.trunc
  | .F32x4Nearest => .fd 106    -- f32x4.nearest
  | .I8x16Shl => .fd 107    -- i8x16.shl
  | .I8x16ShrS => .fd 108    -- i8x16.shr_s
  | .I8x16ShrU => .fd 109    -- i8x16.shr_u
  | .I8x16Add => .fd 110    -- i8x16.add
  | .I8x16AddSatS => .fd 111    -- i8x16.add_sat_s
  | .I8x16AddSatU => .fd 112    -- i8x16.add_sat_u
  | .I8x16Sub => .fd 113    -- i8x16.sub
  | .I8x16SubSatS => .fd 114    -- i8x16.sub_sat_s
  | .I8x16SubSatU => .fd 115    -- i8x16.sub_sat_u
  | .F64x2Ceil => .fd 116    -- f64x2.ceil
  | .F64x2Floor => .fd 117    -- f64x2.floor
  | .I8x16MinS => .fd 118    -- i8x16.min_s
  | .I8x16MinU => .fd 119    -- i8x16.min_u
  | .I8x16MaxS => .fd 120    -- i8x16.max_s
  | .I8x16MaxU => .fd 121    -- i8x16.max_u
  | .F64x2Trunc => .fd 122    -- f64x2.trunc
  | .I8x16AvgrU => .fd 123    -- i8x16.avgr_u
  | .I16x8ExtaddPairwiseI8x16S => .fd 124    -- i16x8.extadd_pairwise_i8x16_s
  | .I16x8ExtaddPairwiseI8x16U => .fd 125    -- i16x8.extadd_pairwise_i8x16_u
  | .I32x4ExtaddPairwiseI16x8S => .fd 126    -- i32x4.extadd_pairwise_i16x8_s
  | .I32x4ExtaddPairwiseI16x8U => .fd 127    -- i32x4.extadd_pairwise_i16x8_u
  | .I16x8Abs => .fd 128    -- i16x8.abs
  | .I16x8Neg => .fd 129    -- i16x8.neg
  | .I16x8Q15MulrSatS => .fd 130    -- i16x8.q15mulr_sat_s
  | .I16x8AllTrue => .fd 131    -- i16x8.all_true
  | .I16x8Bitmask => .fd 132    -- i16x8.bitmask
  | .I16x8NarrowI32x4S => .fd 133    -- i16x8.narrow_i32x4_s
  | .I16x8NarrowI32x4U => .fd 134    -- i16x8.narrow_i32x4_u
  | .I16x8ExtendLowI8x16S => .fd 135    -- i16x8.extend_low_i8x16_s
  | .I16x8ExtendHighI8x16S => .fd 136    -- i16x8.extend_high_i8x16_s
  | .I16x8ExtendLowI8x16U => .fd 137    -- i16x8.extend_low_i8x16_u
  | .I16x8ExtendHighI8x16U => .fd 138    -- i16x8.extend_high_i8x16_u
  | .I16x8Shl => .fd 139    -- i16x8.shl
  | .I16x8ShrS => .fd 140    -- i16x8.shr_s
  | .I16x8ShrU => .fd 141    -- i16x8.shr_u
  | .I16x8Add => .fd 142    -- i16x8.add
  | .I16x8AddSatS => .fd 143    -- i16x8.add_sat_s
  | .I16x8AddSatU => .fd 144    -- i16x8.add_sat_u
  | .I16x8Sub => .fd 145    -- i16x8.sub
  | .I16x8SubSatS => .fd 146    -- i16x8.sub_sat_s
  | .I16x8SubSatU => .fd 147    -- i16x8.sub_sat_u
  | .F64x2Nearest => .fd 148    -- f64x2.nearest
  | .I16x8Mul => .fd 149    -- i16x8.mul
  | .I16x8MinS => .fd 150    -- i16x8.min_s
  | .I16x8MinU => .fd 151    -- i16x8.min_u
  | .I16x8MaxS => .fd 152    -- i16x8.max_s
  | .I16x8MaxU => .fd 153    -- i16x8.max_u
  | .I16x8AvgrU => .fd 155    -- i16x8.avgr_u
  | .I16x8ExtmulLowI8x16S => .fd 156    -- i16x8.extmul_low_i8x16_s
  | .I16x8ExtmulHighI8x16S => .fd 157    -- i16x8.extmul_high_i8x16_s
  | .I16x8ExtmulLowI8x16U => .fd 158    -- i16x8.extmul_low_i8x16_u
  | .I16x8ExtmulHighI8x16U => .fd 159    -- i16x8.extmul_high_i8x16_u
  | .I32x4Abs => .fd 160    -- i32x4.abs
  | .I32x4Neg => .fd 161    -- i32x4.neg
  | .I32x4AllTrue => .fd 163    -- i32x4.all_true
  | .I32x4Bitmask => .fd 164    -- i32x4.bitmask
  | .I32x4ExtendLowI16x8S => .fd 167    -- i32x4.extend_low_i16x8_s
  | .I32x4ExtendHighI16x8S => .fd 168    -- i32x4.extend_high_i16x8_s
  | .I32x4ExtendLowI16x8U => .fd 169    -- i32x4.extend_low_i16x8_u
  | .I32x4ExtendHighI16x8U => .fd 170    -- i32x4.extend_high_i16x8_u
  | .I32x4Shl => .fd 171    -- i32x4.shl
  | .I32x4ShrS => .fd 172    -- i32x4.shr_s
  | .I32x4ShrU => .fd 173    -- i32x4.shr_u
  | .I32x4Add => .fd 174    -- i32x4.add
  | .I32x4Sub => .fd 177    -- i32x4.sub
  | .I32x4Mul => .fd 181    -- i32x4.mul
  | .I32x4MinS => .fd 182    -- i32x4.min_s
  | .I32x4MinU => .fd 183    -- i32x4.min_u
  | .I32x4MaxS => .fd 184    -- i32x4.max_s
  | .I32x4MaxU => .fd 185    -- i32x4.max_u
  | .I32x4DotI16x8S => .fd 186    -- i32x4.dot_i16x8_s
  | .I32x4ExtmulLowI16x8S => .fd 188    -- i32x4.extmul_low_i16x8_s
  | .I32x4ExtmulHighI16x8S => .fd 189    -- i32x4.extmul_high_i16x8_s
  | .I32x4ExtmulLowI16x8U => .fd 190    -- i32x4.extmul_low_i16x8_u
  | .I32x4ExtmulHighI16x8U => .fd 191    -- i32x4.extmul_high_i16x8_u
  | .I64x2Abs => .fd 192    -- i64x2.abs
  | .I64x2Neg => .fd 193    -- i64x2.neg
  | .I64x2AllTrue => .fd 195    -- i64x2.all_true
  | .I64x2Bitmask => .fd 196    -- i64x2.bitmask
  | .I64x2ExtendLowI32x4S => .fd 199    -- i64x2.extend_low_i32x4_s
  | .I64x2ExtendHighI32x4S => .fd 200    -- i64x2.extend_high_i32x4_s
  | .I64x2ExtendLowI32x4U => .fd 201    -- i64x2.extend_low_i32x4_u
  | .I64x2ExtendHighI32x4U => .fd 202    -- i64x2.extend_high_i32x4_u
  | .I64x2Shl => .fd 203    -- i64x2.shl
  | .I64x2ShrS => .fd 204    -- i64x2.shr_s
  | .I64x2ShrU => .fd 205    -- i64x2.shr_u
  | .I64x2Add => .fd 206    -- i64x2.add
  | .I64x2Sub => .fd 209    -- i64x2.sub
  | .I64x2Mul => .fd 213    -- i64x2.mul
  | .I64x2Eq => .fd 214    -- i64x2.eq
  | .I64x2Ne => .fd 215    -- i64x2.ne
  | .I64x2LtS => .fd 216    -- i64x2.lt_s
  | .I64x2GtS => .fd 217    -- i64x2.gt_s
  | .I64x2LeS => .fd 218    -- i64x2.le_s
  | .I64x2GeS => .fd 219    -- i64x2.ge_s
  | .I64x2ExtmulLowI32x4S => .fd 220    -- i64x2.extmul_low_i32x4_s
  | .I64x2ExtmulHighI32x4S => .fd 221    -- i64x2.extmul_high_i32x4_s
  | .I64x2ExtmulLowI32x4U => .fd 222    -- i64x2.extmul_low_i32x4_u
  | .I64x2ExtmulHighI32x4U => .fd 223    -- i64x2.extmul_high_i32x4_u
  | .F32x4Abs => .fd 224    -- f32x4.abs
  | .F32x4Neg => .fd 225    -- f32x4.neg
  | .F32x4Sqrt => .fd 227    -- f32x4.sqrt
  | .F32x4Add => .fd 228    -- f32x4.add
  | .F32x4Sub => .fd 229    -- f32x4.sub
  | .F32x4Mul => .fd 230    -- f32x4.mul
  | .F32x4Div => .fd 231    -- f32x4.div
  | .F32x4Min => .fd 232    -- f32x4.min
  | .F32x4Max => .fd 233    -- f32x4.max
  | .F32x4PMin => .fd 234    -- f32x4.pmin
  | .F32x4PMax => .fd 235    -- f32x4.pmax
  | .F64x2Abs => .fd 236    -- f64x2.abs
  | .F64x2Neg => .fd 237    -- f64x2.neg
  | .F64x2Sqrt => .fd 239    -- f64x2.sqrt
  | .F64x2Add => .fd 240    -- f64x2.add
  | .F64x2Sub => .fd 241    -- f64x2.sub
  | .F64x2Mul => .fd 242    -- f64x2.mul
  | .F64x2Div => .fd 243    -- f64x2.div
  | .F64x2Min => .fd 244    -- f64x2.min
  | .F64x2Max => .fd 245    -- f64x2.max
  | .F64x2PMin => .fd 246    -- f64x2.pmin
  | .F64x2PMax => .fd 247    -- f64x2.pmax
  | .I32x4TruncSatF32x4S => .fd 248    -- i32x4.trunc_sat_f32x4_s
  | .I32x4TruncSatF32x4U => .fd 249    -- i32x4.trunc_sat_f32x4_u
  | .F32x4ConvertI32x4S => .fd 250    -- f32x4.convert_i32x4_s
  | .F32x4ConvertI32x4U => .fd 251    -- f32x4.convert_i32x4_u
  | .I32x4TruncSatF64x2SZero => .fd 252    -- i32x4.trunc_sat_f64x2_s_zero
  | .I32x4TruncSatF64x2UZero => .fd 253    -- i32x4.trunc_sat_f64x2_u_zero
  | .F64x2ConvertLowI32x4S => .fd 254    -- f64x2.convert_low_i32x4_s
  | .F64x2ConvertLowI32x4U => .fd 255    -- f64x2.convert_low_i32x4_u
  | .I8x16RelaxedSwizzle => .fd 256    -- i8x16.relaxed_swizzle
  | .I32x4RelaxedTruncF32x4S => .fd 257    -- i32x4.relaxed_trunc_f32x4_s
  | .I32x4RelaxedTruncF32x4U => .fd 258    -- i32x4.relaxed_trunc_f32x4_u
  | .I32x4RelaxedTruncF64x2SZero => .fd 259    -- i32x4.relaxed_trunc_f64x2_s_zero
  | .I32x4RelaxedTruncF64x2UZero => .fd 260    -- i32x4.relaxed_trunc_f64x2_u_zero
  | .F32x4RelaxedMAdd => .fd 261    -- f32x4.relaxed_madd
  | .F32x4RelaxedNMAdd => .fd 262    -- f32x4.relaxed_nmadd
  | .F64x2RelaxedMAdd => .fd 263    -- f64x2.relaxed_madd
  | .F64x2RelaxedNMAdd => .fd 264    -- f64x2.relaxed_nmadd
  | .I8x16RelaxedLaneSelect => .fd 265    -- i8x16.relaxed_laneselect
  | .I16x8RelaxedLaneSelect => .fd 266    -- i16x8.relaxed_laneselect
  | .I32x4RelaxedLaneSelect => .fd 267    -- i32x4.relaxed_laneselect
  | .I64x2RelaxedLaneSelect => .fd 268    -- i64x2.relaxed_laneselect
  | .F32x4RelaxedMin => .fd 269    -- f32x4.relaxed_min
  | .F32x4RelaxedMax => .fd 270    -- f32x4.relaxed_max
  | .F64x2RelaxedMin => .fd 271    -- f64x2.relaxed_min
  | .F64x2RelaxedMax => .fd 272    -- f64x2.relaxed_max
  | .I16x8RelaxedQ15MulrS => .fd 273    -- i16x8.relaxed_q15mulr_s
  | .I16x8RelaxedDotSI8x16 => .fd 274    -- i16x8.relaxed_dot_i8x16_i7x16_s
  | .I32x4RelaxedDotAddSI16x8 => .fd 275    -- i32x4.relaxed_dot_i8x16_i7x16_add_s

/-- Opcodes of the instructions with a memarg. -/
def opcodeOfMemOp : MemOp → Opcode
  | .I32Load => .byte 0x28    -- i32.load
  | .I64Load => .byte 0x29    -- i64.load
  | .F32Load => .byte 0x2A    -- f32.load
  | .F64Load => .byte 0x2B    -- f64.load
  | .I32Load8s => .byte 0x2C    -- i32.load8_s
  | .I32Load8u => .byte 0x2D    -- i32.load8_u
  | .I32Load16s => .byte 0x2E    -- i32.load16_s
  | .I32Load16u => .byte 0x2F    -- i32.load16_u
  | .I64Load8s => .byte 0x30    -- i64.load8_s
  | .I64Load8u => .byte 0x31    -- i64.load8_u
  | .I64Load16s => .byte 0x32    -- i64.load16_s
  | .I64Load16u => .byte 0x33    -- i64.load16_u
  | .I64Load32s => .byte 0x34    -- i64.load32_s
  | .I64Load32u => .byte 0x35    -- i64.load32_u
  | .I32Store => .byte 0x36    -- i32.store
  | .I64Store => .byte 0x37    -- i64.store
  | .F32Store => .byte 0x38    -- f32.store
  | .F64Store => .byte 0x39    -- f64.store
  | .I32Store8 => .byte 0x3A    -- i32.store8
  | .I32Store16 => .byte 0x3B    -- i32.store16
  | .I64Store8 => .byte 0x3C    -- i64.store8
  | .I64Store16 => .byte 0x3D    -- i64.store16
  | .I64Store32 => .byte 0x3E    -- i64.store32
  | .V128Load => .fd 0    -- v128.load
  | .V128Load8x8S => .fd 1    -- v128.load8x8_s
  | .V128Load8x8U => .fd 2    -- v128.load8x8_u
  | .V128Load16x4S => .fd 3    -- v128.load16x4_s
  | .V128Load16x4U => .fd 4    -- v128.load16x4_u
  | .V128Load32x2S => .fd 5    -- v128.load32x2_s
  | .V128Load32x2U => .fd 6    -- v128.load32x2_u
  | .V128Load8Splat => .fd 7    -- v128.load8_splat
  | .V128Load16Splat => .fd 8    -- v128.load16_splat
  | .V128Load32Splat => .fd 9    -- v128.load32_splat
  | .V128Load64Splat => .fd 10    -- v128.load64_splat
  | .V128Store => .fd 11    -- v128.store
  | .V128Load32Zero => .fd 92    -- v128.load32_zero
  | .V128Load64Zero => .fd 93    -- v128.load64_zero

/-- Opcodes of the instructions with a memarg and a lane index. -/
def opcodeOfMemLaneOp : MemLaneOp → Opcode
  | .V128Load8Lane => .fd 84    -- v128.load8_lane
  | .V128Load16Lane => .fd 85    -- v128.load16_lane
  | .V128Load32Lane => .fd 86    -- v128.load32_lane
  | .V128Load64Lane => .fd 87    -- v128.load64_lane
  | .V128Store8Lane => .fd 88    -- v128.store8_lane
  | .V128Store16Lane => .fd 89    -- v128.store16_lane
  | .V128Store32Lane => .fd 90    -- v128.store32_lane
  | .V128Store64Lane => .fd 91    -- v128.store64_lane

/-- Opcodes of the instructions with a lane index. -/
def opcodeOfLaneOp : LaneOp → Opcode
  | .I8x16ExtractLaneS => .fd 21    -- i8x16.extract_lane_s
  | .I8x16ExtractLaneU => .fd 22    -- i8x16.extract_lane_u
  | .I8x16ReplaceLane => .fd 23    -- i8x16.replace_lane
  | .I16x8ExtractLaneS => .fd 24    -- i16x8.extract_lane_s
  | .I16x8ExtractLaneU => .fd 25    -- i16x8.extract_lane_u
  | .I16x8ReplaceLane => .fd 26    -- i16x8.replace_lane
  | .I32x4ExtractLane => .fd 27    -- i32x4.extract_lane
  | .I32x4ReplaceLane => .fd 28    -- i32x4.replace_lane
  | .I64x2ExtractLane => .fd 29    -- i64x2.extract_lane
  | .I64x2ReplaceLane => .fd 30    -- i64x2.replace_lane
  | .F32x4ExtractLane => .fd 31    -- f32x4.extract_lane
  | .F32x4ReplaceLane => .fd 32    -- f32x4.replace_lane
  | .F64x2ExtractLane => .fd 33    -- f64x2.extract_lane
  | .F64x2ReplaceLane => .fd 34    -- f64x2.replace_lane

end Wadec.Spec
