import Verif.Model.Debug

/-! Generated by tools/gen_debug.py from /repo/src/core: what the derived `Debug` impls tell the formatter. -/

namespace Wadec

/-- src/core/indices.rs:7-8 -/
instance : Debug TypeIdx := ⟨fun t x => .tuple "TypeIdx" [dbg t x.val]⟩

/-- src/core/indices.rs:7-8 -/
instance : Debug FuncIdx := ⟨fun t x => .tuple "FuncIdx" [dbg t x.val]⟩

/-- src/core/indices.rs:7-8 -/
instance : Debug TableIdx := ⟨fun t x => .tuple "TableIdx" [dbg t x.val]⟩

/-- src/core/indices.rs:7-8 -/
instance : Debug MemIdx := ⟨fun t x => .tuple "MemIdx" [dbg t x.val]⟩

/-- src/core/indices.rs:7-8 -/
instance : Debug GlobalIdx := ⟨fun t x => .tuple "GlobalIdx" [dbg t x.val]⟩

/-- src/core/indices.rs:7-8 -/
instance : Debug ElemIdx := ⟨fun t x => .tuple "ElemIdx" [dbg t x.val]⟩

/-- src/core/indices.rs:7-8 -/
instance : Debug DataIdx := ⟨fun t x => .tuple "DataIdx" [dbg t x.val]⟩

/-- src/core/indices.rs:7-8 -/
instance : Debug LocalIdx := ⟨fun t x => .tuple "LocalIdx" [dbg t x.val]⟩

/-- src/core/indices.rs:7-8 -/
instance : Debug LabelIdx := ⟨fun t x => .tuple "LabelIdx" [dbg t x.val]⟩

/-- src/core/indices.rs:7-8 -/
instance : Debug TagIdx := ⟨fun t x => .tuple "TagIdx" [dbg t x.val]⟩

/-- src/core/types/addrtype.rs:5-9 -/
instance : Debug AddrType where
  dbg _
    | .I32 => .word "I32"
    | .I64 => .word "I64"

/-- src/core/types/numtype.rs:15-21 -/
instance : Debug NumType where
  dbg _
    | .Int32 => .word "Int32"
    | .Int64 => .word "Int64"
    | .Float32 => .word "Float32"
    | .Float64 => .word "Float64"

/-- src/core/types/vectype.rs:14-17 -/
instance : Debug VecType where
  dbg _
    | .V128 => .word "V128"

/-- src/core/types/heaptype.rs:50-64 -/
instance : Debug AbsHeapType where
  dbg _
    | .Exn => .word "Exn"
    | .Array => .word "Array"
    | .Struct => .word "Struct"
    | .I31 => .word "I31"
    | .Eq => .word "Eq"
    | .Any => .word "Any"
    | .Extern => .word "Extern"
    | .Func => .word "Func"
    | .None => .word "None"
    | .NoExtern => .word "NoExtern"
    | .NoFunc => .word "NoFunc"
    | .NoExn => .word "NoExn"

/-- src/core/types/heaptype.rs:44-48 -/
instance : Debug HeapType where
  dbg t
    | .Ht x => .tuple "Ht" [dbg t x]
    | .TypeIdx x => .tuple "TypeIdx" [dbg t x]

/-- src/core/types/reftype.rs:9-13 -/
instance : Debug RefType := ⟨fun t x => .struct "RefType" [("nullable", dbg t x.nullable), ("ht", dbg t x.ht)]⟩

/-- src/core/types/valtype.rs:11-16 -/
instance : Debug ValType where
  dbg t
    | .Num x => .tuple "Num" [dbg t x]
    | .Vec x => .tuple "Vec" [dbg t x]
    | .Ref x => .tuple "Ref" [dbg t x]

/-- src/core/types/globaltype.rs:11-15 -/
instance : Debug Mut where
  dbg _
    | .Const => .word "Const"
    | .Var => .word "Var"

/-- src/core/types/globaltype.rs:8-9 -/
instance : Debug GlobalType := ⟨fun t x => .tuple "GlobalType" [dbg t x.mutability, dbg t x.valtype]⟩

/-- src/core/types/comptype.rs:30-34 -/
instance : Debug PackType where
  dbg _
    | .I8 => .word "I8"
    | .I16 => .word "I16"

/-- src/core/types/comptype.rs:24-28 -/
instance : Debug StorageType where
  dbg t
    | .ValType x => .tuple "ValType" [dbg t x]
    | .PackType x => .tuple "PackType" [dbg t x]

/-- src/core/types/comptype.rs:21-22 -/
instance : Debug FieldType := ⟨fun t x => .tuple "FieldType" [dbg t x.mutability, dbg t x.storage]⟩

/-- src/core/types/comptype.rs:9-17 -/
instance : Debug CompType where
  dbg t
    | .Struct x => .tuple "Struct" [dbg t x]
    | .Array x => .tuple "Array" [dbg t x]
    | .Func x0 x1 => .struct "Func" [("parameters", dbg t x0), ("results", dbg t x1)]

/-- src/core/types/rectype.rs:13-18 -/
instance : Debug SubType := ⟨fun t x => .struct "SubType" [("is_final", dbg t x.is_final), ("supertypes", dbg t x.supertypes), ("comptype", dbg t x.comptype)]⟩

/-- src/core/types/rectype.rs:10-11 -/
instance : Debug RecType := ⟨fun t x => .tuple "RecType" [dbg t x.subtypes]⟩

/-- src/core/types/limits.rs:8-13 -/
instance : Debug Limits := ⟨fun t x => .struct "Limits" [("address_type", dbg t x.address_type), ("min", dbg t x.min), ("max", dbg t x.max)]⟩

/-- src/core/types/memtype.rs:11-14 -/
instance : Debug MemType := ⟨fun t x => .struct "MemType" [("limits", dbg t x.limits)]⟩

/-- src/core/types/tabletype.rs:10-14 -/
instance : Debug TableType := ⟨fun t x => .struct "TableType" [("reftype", dbg t x.reftype), ("limits", dbg t x.limits)]⟩

/-- src/core/types/tagtype.rs:9-10 -/
instance : Debug TagType := ⟨fun t x => .tuple "TagType" [dbg t x.idx]⟩

/-- src/core/types/externtype.rs:9-16 -/
instance : Debug ExternType where
  dbg t
    | .Func x => .tuple "Func" [dbg t x]
    | .Table x => .tuple "Table" [dbg t x]
    | .Mem x => .tuple "Mem" [dbg t x]
    | .Global x => .tuple "Global" [dbg t x]
    | .Tag x => .tuple "Tag" [dbg t x]

/-- src/core/instruction.rs:525-530 -/
instance : Debug Memarg := ⟨fun t x => .struct "Memarg" [("mem_idx", dbg t x.mem_idx), ("align", dbg t x.align), ("offset", dbg t x.offset)]⟩

/-- src/core/instruction.rs:536-537 -/
instance : Debug LaneIdx := ⟨fun t x => .tuple "LaneIdx" [dbg t x.val]⟩

/-- src/core/instruction.rs:539-544 -/
instance : Debug BlockType where
  dbg t
    | .Empty => .word "Empty"
    | .T x => .tuple "T" [dbg t x]
    | .I x => .tuple "I" [dbg t x]

/-- src/core/instruction.rs:546-552 -/
instance : Debug Catch where
  dbg t
    | .Catch x0 x1 => .tuple "Catch" [dbg t x0, dbg t x1]
    | .CatchRef x0 x1 => .tuple "CatchRef" [dbg t x0, dbg t x1]
    | .CatchAll x => .tuple "CatchAll" [dbg t x]
    | .CatchAllRef x => .tuple "CatchAllRef" [dbg t x]

/-- src/core/mod.rs:33-38 -/
instance : Debug Import := ⟨fun t x => .struct "Import" [("module_name", dbg t x.module_name), ("item_name", dbg t x.item_name), ("extern_type", dbg t x.extern_type)]⟩

/-- src/core/mod.rs:53-60 -/
instance : Debug ExternIdx where
  dbg t
    | .Func x => .tuple "Func" [dbg t x]
    | .Global x => .tuple "Global" [dbg t x]
    | .Table x => .tuple "Table" [dbg t x]
    | .Mem x => .tuple "Mem" [dbg t x]
    | .Tag x => .tuple "Tag" [dbg t x]

/-- src/core/mod.rs:47-51 -/
instance : Debug Export := ⟨fun t x => .struct "Export" [("name", dbg t x.name), ("externidx", dbg t x.externidx)]⟩

/-- src/core/module.rs:171-187 -/
instance : Debug SectionKind where
  dbg _
    | .Custom => .word "Custom"
    | .Type => .word "Type"
    | .Import => .word "Import"
    | .Function => .word "Function"
    | .Table => .word "Table"
    | .Memory => .word "Memory"
    | .Tag => .word "Tag"
    | .Global => .word "Global"
    | .Export => .word "Export"
    | .Start => .word "Start"
    | .Element => .word "Element"
    | .DataCount => .word "DataCount"
    | .Code => .word "Code"
    | .Data => .word "Data"

/-- src/core/module.rs:165-169 -/
instance : Debug SectionHeader := ⟨fun t x => .struct "SectionHeader" [("kind", dbg t x.kind), ("size", dbg t x.size)]⟩

/-- src/core/custom_section.rs:12-16 -/
instance : Debug CustomSection := ⟨fun t x => .struct "CustomSection" [("name", dbg t x.name), ("contents", dbg t x.contents)]⟩

/-- the names of the variants (src/core/instruction.rs:7-520) -/
def PlainOp.text : PlainOp → String
  | .Unreachable => "Unreachable"
  | .Nop => "Nop"
  | .Return => "Return"
  | .ThrowRef => "ThrowRef"
  | .RefIsNull => "RefIsNull"
  | .RefAsNonNull => "RefAsNonNull"
  | .RefEq => "RefEq"
  | .ArrayLen => "ArrayLen"
  | .AnyConvertExtern => "AnyConvertExtern"
  | .ExternConvertAny => "ExternConvertAny"
  | .RefI31 => "RefI31"
  | .I31GetS => "I31GetS"
  | .I31GetU => "I31GetU"
  | .Drop => "Drop"
  | .I32Eqz => "I32Eqz"
  | .I32Eq => "I32Eq"
  | .I32Ne => "I32Ne"
  | .I32LtS => "I32LtS"
  | .I32LtU => "I32LtU"
  | .I32GtS => "I32GtS"
  | .I32GtU => "I32GtU"
  | .I32LeS => "I32LeS"
  | .I32LeU => "I32LeU"
  | .I32GeS => "I32GeS"
  | .I32GeU => "I32GeU"
  | .I64Eqz => "I64Eqz"
  | .I64Eq => "I64Eq"
  | .I64Ne => "I64Ne"
  | .I64LtS => "I64LtS"
  | .I64LtU => "I64LtU"
  | .I64GtS => "I64GtS"
  | .I64GtU => "I64GtU"
  | .I64LeS => "I64LeS"
  | .I64LeU => "I64LeU"
  | .I64GeS => "I64GeS"
  | .I64GeU => "I64GeU"
  | .F32Eq => "F32Eq"
  | .F32Ne => "F32Ne"
  | .F32Lt => "F32Lt"
  | .F32Gt => "F32Gt"
  | .F32Le => "F32Le"
  | .F32Ge => "F32Ge"
  | .F64Eq => "F64Eq"
  | .F64Ne => "F64Ne"
  | .F64Lt => "F64Lt"
  | .F64Gt => "F64Gt"
  | .F64Le => "F64Le"
  | .F64Ge => "F64Ge"
  | .I32Clz => "I32Clz"
  | .I32Ctz => "I32Ctz"
  | .I32Popcnt => "I32Popcnt"
  | .I32Add => "I32Add"
  | .I32Sub => "I32Sub"
  | .I32Mul => "I32Mul"
  | .I32DivS => "I32DivS"
  | .I32DivU => "I32DivU"
  | .I32RemS => "I32RemS"
  | .I32RemU => "I32RemU"
  | .I32And => "I32And"
  | .I32Or => "I32Or"
  | .I32Xor => "I32Xor"
  | .I32Shl => "I32Shl"
  | .I32ShrS => "I32ShrS"
  | .I32ShrU => "I32ShrU"
  | .I32Rotl => "I32Rotl"
  | .I32Rotr => "I32Rotr"
  | .I64Clz => "I64Clz"
  | .I64Ctz => "I64Ctz"
  | .I64Popcnt => "I64Popcnt"
  | .I64Add => "I64Add"
  | .I64Sub => "I64Sub"
  | .I64Mul => "I64Mul"
  | .I64DivS => "I64DivS"
  | .I64DivU => "I64DivU"
  | .I64RemS => "I64RemS"
  | .I64RemU => "I64RemU"
  | .I64And => "I64And"
  | .I64Or => "I64Or"
  | .I64Xor => "I64Xor"
  | .I64Shl => "I64Shl"
  | .I64ShrS => "I64ShrS"
  | .I64ShrU => "I64ShrU"
  | .I64Rotl => "I64Rotl"
  | .I64Rotr => "I64Rotr"
  | .F32Abs => "F32Abs"
  | .F32Neg => "F32Neg"
  | .F32Ceil => "F32Ceil"
  | .F32Floor => "F32Floor"
  | .F32Trunc => "F32Trunc"
  | .F32Nearest => "F32Nearest"
  | .F32Sqrt => "F32Sqrt"
  | .F32Add => "F32Add"
  | .F32Sub => "F32Sub"
  | .F32Mul => "F32Mul"
  | .F32Div => "F32Div"
  | .F32Min => "F32Min"
  | .F32Max => "F32Max"
  | .F32Copysign => "F32Copysign"
  | .F64Abs => "F64Abs"
  | .F64Neg => "F64Neg"
  | .F64Ceil => "F64Ceil"
  | .F64Floor => "F64Floor"
  | .F64Trunc => "F64Trunc"
  | .F64Nearest => "F64Nearest"
  | .F64Sqrt => "F64Sqrt"
  | .F64Add => "F64Add"
  | .F64Sub => "F64Sub"
  | .F64Mul => "F64Mul"
  | .F64Div => "F64Div"
  | .F64Min => "F64Min"
  | .F64Max => "F64Max"
  | .F64Copysign => "F64Copysign"
  | .I32WrapI64 => "I32WrapI64"
  | .I32TruncF32S => "I32TruncF32S"
  | .I32TruncF32U => "I32TruncF32U"
  | .I32TruncF64S => "I32TruncF64S"
  | .I32TruncF64U => "I32TruncF64U"
  | .I64ExtendI32S => "I64ExtendI32S"
  | .I64ExtendI32U => "I64ExtendI32U"
  | .I64TruncF32S => "I64TruncF32S"
  | .I64TruncF32U => "I64TruncF32U"
  | .I64TruncF64S => "I64TruncF64S"
  | .I64TruncF64U => "I64TruncF64U"
  | .F32ConvertI32S => "F32ConvertI32S"
  | .F32ConvertI32U => "F32ConvertI32U"
  | .F32ConvertI64S => "F32ConvertI64S"
  | .F32ConvertI64U => "F32ConvertI64U"
  | .F32DemoteF64 => "F32DemoteF64"
  | .F64ConvertI32S => "F64ConvertI32S"
  | .F64ConvertI32U => "F64ConvertI32U"
  | .F64ConvertI64S => "F64ConvertI64S"
  | .F64ConvertI64U => "F64ConvertI64U"
  | .F64PromoteF32 => "F64PromoteF32"
  | .I32ReinterpretF32 => "I32ReinterpretF32"
  | .I64ReinterpretF64 => "I64ReinterpretF64"
  | .F32ReinterpretI32 => "F32ReinterpretI32"
  | .F64ReinterpretI64 => "F64ReinterpretI64"
  | .I32Extend8S => "I32Extend8S"
  | .I32Extend16S => "I32Extend16S"
  | .I64Extend8S => "I64Extend8S"
  | .I64Extend16S => "I64Extend16S"
  | .I64Extend32S => "I64Extend32S"
  | .I32TruncSatF32S => "I32TruncSatF32S"
  | .I32TruncSatF32U => "I32TruncSatF32U"
  | .I32TruncSatF64S => "I32TruncSatF64S"
  | .I32TruncSatF64U => "I32TruncSatF64U"
  | .I64TruncSatF32S => "I64TruncSatF32S"
  | .I64TruncSatF32U => "I64TruncSatF32U"
  | .I64TruncSatF64S => "I64TruncSatF64S"
  | .I64TruncSatF64U => "I64TruncSatF64U"
  | .I8x16Swizzle => "I8x16Swizzle"
  | .I8x16RelaxedSwizzle => "I8x16RelaxedSwizzle"
  | .I8x16Splat => "I8x16Splat"
  | .I16x8Splat => "I16x8Splat"
  | .I32x4Splat => "I32x4Splat"
  | .I64x2Splat => "I64x2Splat"
  | .F32x4Splat => "F32x4Splat"
  | .F64x2Splat => "F64x2Splat"
  | .I8x16Eq => "I8x16Eq"
  | .I8x16Ne => "I8x16Ne"
  | .I8x16LtS => "I8x16LtS"
  | .I8x16LtU => "I8x16LtU"
  | .I8x16GtS => "I8x16GtS"
  | .I8x16GtU => "I8x16GtU"
  | .I8x16LeS => "I8x16LeS"
  | .I8x16LeU => "I8x16LeU"
  | .I8x16GeS => "I8x16GeS"
  | .I8x16GeU => "I8x16GeU"
  | .I16x8Eq => "I16x8Eq"
  | .I16x8Ne => "I16x8Ne"
  | .I16x8LtS => "I16x8LtS"
  | .I16x8LtU => "I16x8LtU"
  | .I16x8GtS => "I16x8GtS"
  | .I16x8GtU => "I16x8GtU"
  | .I16x8LeS => "I16x8LeS"
  | .I16x8LeU => "I16x8LeU"
  | .I16x8GeS => "I16x8GeS"
  | .I16x8GeU => "I16x8GeU"
  | .I32x4Eq => "I32x4Eq"
  | .I32x4Ne => "I32x4Ne"
  | .I32x4LtS => "I32x4LtS"
  | .I32x4LtU => "I32x4LtU"
  | .I32x4GtS => "I32x4GtS"
  | .I32x4GtU => "I32x4GtU"
  | .I32x4LeS => "I32x4LeS"
  | .I32x4LeU => "I32x4LeU"
  | .I32x4GeS => "I32x4GeS"
  | .I32x4GeU => "I32x4GeU"
  | .I64x2Eq => "I64x2Eq"
  | .I64x2Ne => "I64x2Ne"
  | .I64x2LtS => "I64x2LtS"
  | .I64x2GtS => "I64x2GtS"
  | .I64x2LeS => "I64x2LeS"
  | .I64x2GeS => "I64x2GeS"
  | .F32x4Eq => "F32x4Eq"
  | .F32x4Ne => "F32x4Ne"
  | .F32x4Lt => "F32x4Lt"
  | .F32x4Gt => "F32x4Gt"
  | .F32x4Le => "F32x4Le"
  | .F32x4Ge => "F32x4Ge"
  | .F64x2Eq => "F64x2Eq"
  | .F64x2Ne => "F64x2Ne"
  | .F64x2Lt => "F64x2Lt"
  | .F64x2Gt => "F64x2Gt"
  | .F64x2Le => "F64x2Le"
  | .F64x2Ge => "F64x2Ge"
  | .V128Not => "V128Not"
  | .V128And => "V128And"
  | .V128AndNot => "V128AndNot"
  | .V128Or => "V128Or"
  | .V128Xor => "V128Xor"
  | .V128Bitselect => "V128Bitselect"
  | .I8x16RelaxedLaneSelect => "I8x16RelaxedLaneSelect"
  | .I16x8RelaxedLaneSelect => "I16x8RelaxedLaneSelect"
  | .I32x4RelaxedLaneSelect => "I32x4RelaxedLaneSelect"
  | .I64x2RelaxedLaneSelect => "I64x2RelaxedLaneSelect"
  | .V128AnyTrue => "V128AnyTrue"
  | .I8x16Abs => "I8x16Abs"
  | .I8x16Neg => "I8x16Neg"
  | .I8x16Popcnt => "I8x16Popcnt"
  | .I8x16AllTrue => "I8x16AllTrue"
  | .I8x16Bitmask => "I8x16Bitmask"
  | .I8x16NarrowI16x8S => "I8x16NarrowI16x8S"
  | .I8x16NarrowI16x8U => "I8x16NarrowI16x8U"
  | .I8x16Shl => "I8x16Shl"
  | .I8x16ShrS => "I8x16ShrS"
  | .I8x16ShrU => "I8x16ShrU"
  | .I8x16Add => "I8x16Add"
  | .I8x16AddSatS => "I8x16AddSatS"
  | .I8x16AddSatU => "I8x16AddSatU"
  | .I8x16Sub => "I8x16Sub"
  | .I8x16SubSatS => "I8x16SubSatS"
  | .I8x16SubSatU => "I8x16SubSatU"
  | .I8x16MinS => "I8x16MinS"
  | .I8x16MinU => "I8x16MinU"
  | .I8x16MaxS => "I8x16MaxS"
  | .I8x16MaxU => "I8x16MaxU"
  | .I8x16AvgrU => "I8x16AvgrU"
  | .I16x8ExtaddPairwiseI8x16S => "I16x8ExtaddPairwiseI8x16S"
  | .I16x8ExtaddPairwiseI8x16U => "I16x8ExtaddPairwiseI8x16U"
  | .I16x8Abs => "I16x8Abs"
  | .I16x8Neg => "I16x8Neg"
  | .I16x8Q15MulrSatS => "I16x8Q15MulrSatS"
  | .I16x8AllTrue => "I16x8AllTrue"
  | .I16x8Bitmask => "I16x8Bitmask"
  | .I16x8NarrowI32x4S => "I16x8NarrowI32x4S"
  | .I16x8NarrowI32x4U => "I16x8NarrowI32x4U"
  | .I16x8ExtendLowI8x16S => "I16x8ExtendLowI8x16S"
  | .I16x8ExtendHighI8x16S => "I16x8ExtendHighI8x16S"
  | .I16x8ExtendLowI8x16U => "I16x8ExtendLowI8x16U"
  | .I16x8ExtendHighI8x16U => "I16x8ExtendHighI8x16U"
  | .I16x8Shl => "I16x8Shl"
  | .I16x8ShrS => "I16x8ShrS"
  | .I16x8ShrU => "I16x8ShrU"
  | .I16x8Add => "I16x8Add"
  | .I16x8AddSatS => "I16x8AddSatS"
  | .I16x8AddSatU => "I16x8AddSatU"
  | .I16x8Sub => "I16x8Sub"
  | .I16x8SubSatS => "I16x8SubSatS"
  | .I16x8SubSatU => "I16x8SubSatU"
  | .I16x8Mul => "I16x8Mul"
  | .I16x8MinS => "I16x8MinS"
  | .I16x8MinU => "I16x8MinU"
  | .I16x8MaxS => "I16x8MaxS"
  | .I16x8MaxU => "I16x8MaxU"
  | .I16x8AvgrU => "I16x8AvgrU"
  | .I16x8ExtmulLowI8x16S => "I16x8ExtmulLowI8x16S"
  | .I16x8ExtmulHighI8x16S => "I16x8ExtmulHighI8x16S"
  | .I16x8ExtmulLowI8x16U => "I16x8ExtmulLowI8x16U"
  | .I16x8ExtmulHighI8x16U => "I16x8ExtmulHighI8x16U"
  | .I16x8RelaxedQ15MulrS => "I16x8RelaxedQ15MulrS"
  | .I16x8RelaxedDotSI8x16 => "I16x8RelaxedDotSI8x16"
  | .I32x4RelaxedDotAddSI16x8 => "I32x4RelaxedDotAddSI16x8"
  | .I32x4ExtaddPairwiseI16x8S => "I32x4ExtaddPairwiseI16x8S"
  | .I32x4ExtaddPairwiseI16x8U => "I32x4ExtaddPairwiseI16x8U"
  | .I32x4Abs => "I32x4Abs"
  | .I32x4Neg => "I32x4Neg"
  | .I32x4AllTrue => "I32x4AllTrue"
  | .I32x4Bitmask => "I32x4Bitmask"
  | .I32x4ExtendLowI16x8S => "I32x4ExtendLowI16x8S"
  | .I32x4ExtendHighI16x8S => "I32x4ExtendHighI16x8S"
  | .I32x4ExtendLowI16x8U => "I32x4ExtendLowI16x8U"
  | .I32x4ExtendHighI16x8U => "I32x4ExtendHighI16x8U"
  | .I32x4Shl => "I32x4Shl"
  | .I32x4ShrS => "I32x4ShrS"
  | .I32x4ShrU => "I32x4ShrU"
  | .I32x4Add => "I32x4Add"
  | .I32x4Sub => "I32x4Sub"
  | .I32x4Mul => "I32x4Mul"
  | .I32x4MinS => "I32x4MinS"
  | .I32x4MinU => "I32x4MinU"
  | .I32x4MaxS => "I32x4MaxS"
  | .I32x4MaxU => "I32x4MaxU"
  | .I32x4DotI16x8S => "I32x4DotI16x8S"
  | .I32x4ExtmulLowI16x8S => "I32x4ExtmulLowI16x8S"
  | .I32x4ExtmulHighI16x8S => "I32x4ExtmulHighI16x8S"
  | .I32x4ExtmulLowI16x8U => "I32x4ExtmulLowI16x8U"
  | .I32x4ExtmulHighI16x8U => "I32x4ExtmulHighI16x8U"
  | .I64x2Abs => "I64x2Abs"
  | .I64x2Neg => "I64x2Neg"
  | .I64x2AllTrue => "I64x2AllTrue"
  | .I64x2Bitmask => "I64x2Bitmask"
  | .I64x2ExtendLowI32x4S => "I64x2ExtendLowI32x4S"
  | .I64x2ExtendHighI32x4S => "I64x2ExtendHighI32x4S"
  | .I64x2ExtendLowI32x4U => "I64x2ExtendLowI32x4U"
  | .I64x2ExtendHighI32x4U => "I64x2ExtendHighI32x4U"
  | .I64x2Shl => "I64x2Shl"
  | .I64x2ShrS => "I64x2ShrS"
  | .I64x2ShrU => "I64x2ShrU"
  | .I64x2Add => "I64x2Add"
  | .I64x2Sub => "I64x2Sub"
  | .I64x2Mul => "I64x2Mul"
  | .I64x2ExtmulLowI32x4S => "I64x2ExtmulLowI32x4S"
  | .I64x2ExtmulHighI32x4S => "I64x2ExtmulHighI32x4S"
  | .I64x2ExtmulLowI32x4U => "I64x2ExtmulLowI32x4U"
  | .I64x2ExtmulHighI32x4U => "I64x2ExtmulHighI32x4U"
  | .F32x4Ceil => "F32x4Ceil"
  | .F32x4Floor => "F32x4Floor"
  | .F32x4Trunc => "F32x4Trunc"
  | .F32x4Nearest => "F32x4Nearest"
  | .F32x4Abs => "F32x4Abs"
  | .F32x4Neg => "F32x4Neg"
  | .F32x4Sqrt => "F32x4Sqrt"
  | .F32x4Add => "F32x4Add"
  | .F32x4Sub => "F32x4Sub"
  | .F32x4Mul => "F32x4Mul"
  | .F32x4Div => "F32x4Div"
  | .F32x4Min => "F32x4Min"
  | .F32x4Max => "F32x4Max"
  | .F32x4PMin => "F32x4PMin"
  | .F32x4PMax => "F32x4PMax"
  | .F32x4RelaxedMin => "F32x4RelaxedMin"
  | .F32x4RelaxedMax => "F32x4RelaxedMax"
  | .F32x4RelaxedMAdd => "F32x4RelaxedMAdd"
  | .F32x4RelaxedNMAdd => "F32x4RelaxedNMAdd"
  | .F64x2Ceil => "F64x2Ceil"
  | .F64x2Floor => "F64x2Floor"
  | .F64x2Trunc => "F64x2Trunc"
  | .F64x2Nearest => "F64x2Nearest"
  | .F64x2Abs => "F64x2Abs"
  | .F64x2Neg => "F64x2Neg"
  | .F64x2Sqrt => "F64x2Sqrt"
  | .F64x2Add => "F64x2Add"
  | .F64x2Sub => "F64x2Sub"
  | .F64x2Mul => "F64x2Mul"
  | .F64x2Div => "F64x2Div"
  | .F64x2Min => "F64x2Min"
  | .F64x2Max => "F64x2Max"
  | .F64x2PMin => "F64x2PMin"
  | .F64x2PMax => "F64x2PMax"
  | .F64x2RelaxedMin => "F64x2RelaxedMin"
  | .F64x2RelaxedMax => "F64x2RelaxedMax"
  | .F64x2RelaxedMAdd => "F64x2RelaxedMAdd"
  | .F64x2RelaxedNMAdd => "F64x2RelaxedNMAdd"
  | .I32x4TruncSatF32x4S => "I32x4TruncSatF32x4S"
  | .I32x4TruncSatF32x4U => "I32x4TruncSatF32x4U"
  | .F32x4ConvertI32x4S => "F32x4ConvertI32x4S"
  | .F32x4ConvertI32x4U => "F32x4ConvertI32x4U"
  | .I32x4TruncSatF64x2SZero => "I32x4TruncSatF64x2SZero"
  | .I32x4TruncSatF64x2UZero => "I32x4TruncSatF64x2UZero"
  | .I32x4RelaxedTruncF32x4S => "I32x4RelaxedTruncF32x4S"
  | .I32x4RelaxedTruncF32x4U => "I32x4RelaxedTruncF32x4U"
  | .I32x4RelaxedTruncF64x2SZero => "I32x4RelaxedTruncF64x2SZero"
  | .I32x4RelaxedTruncF64x2UZero => "I32x4RelaxedTruncF64x2UZero"
  | .F64x2ConvertLowI32x4S => "F64x2ConvertLowI32x4S"
  | .F64x2ConvertLowI32x4U => "F64x2ConvertLowI32x4U"
  | .F32x4DemoteF64x2Zero => "F32x4DemoteF64x2Zero"
  | .F64x2PromoteLowF32x4 => "F64x2PromoteLowF32x4"

/-- the names of the variants (src/core/instruction.rs:7-520) -/
def MemOp.text : MemOp → String
  | .I32Load => "I32Load"
  | .I64Load => "I64Load"
  | .F32Load => "F32Load"
  | .F64Load => "F64Load"
  | .I32Load8s => "I32Load8s"
  | .I32Load8u => "I32Load8u"
  | .I32Load16s => "I32Load16s"
  | .I32Load16u => "I32Load16u"
  | .I64Load8s => "I64Load8s"
  | .I64Load8u => "I64Load8u"
  | .I64Load16s => "I64Load16s"
  | .I64Load16u => "I64Load16u"
  | .I64Load32s => "I64Load32s"
  | .I64Load32u => "I64Load32u"
  | .I32Store => "I32Store"
  | .I64Store => "I64Store"
  | .F32Store => "F32Store"
  | .F64Store => "F64Store"
  | .I32Store8 => "I32Store8"
  | .I32Store16 => "I32Store16"
  | .I64Store8 => "I64Store8"
  | .I64Store16 => "I64Store16"
  | .I64Store32 => "I64Store32"
  | .V128Load => "V128Load"
  | .V128Load8x8S => "V128Load8x8S"
  | .V128Load8x8U => "V128Load8x8U"
  | .V128Load16x4S => "V128Load16x4S"
  | .V128Load16x4U => "V128Load16x4U"
  | .V128Load32x2S => "V128Load32x2S"
  | .V128Load32x2U => "V128Load32x2U"
  | .V128Load8Splat => "V128Load8Splat"
  | .V128Load16Splat => "V128Load16Splat"
  | .V128Load32Splat => "V128Load32Splat"
  | .V128Load64Splat => "V128Load64Splat"
  | .V128Load32Zero => "V128Load32Zero"
  | .V128Load64Zero => "V128Load64Zero"
  | .V128Store => "V128Store"

/-- the names of the variants (src/core/instruction.rs:7-520) -/
def MemLaneOp.text : MemLaneOp → String
  | .V128Load8Lane => "V128Load8Lane"
  | .V128Load16Lane => "V128Load16Lane"
  | .V128Load32Lane => "V128Load32Lane"
  | .V128Load64Lane => "V128Load64Lane"
  | .V128Store8Lane => "V128Store8Lane"
  | .V128Store16Lane => "V128Store16Lane"
  | .V128Store32Lane => "V128Store32Lane"
  | .V128Store64Lane => "V128Store64Lane"

/-- the names of the variants (src/core/instruction.rs:7-520) -/
def LaneOp.text : LaneOp → String
  | .I8x16ExtractLaneS => "I8x16ExtractLaneS"
  | .I8x16ExtractLaneU => "I8x16ExtractLaneU"
  | .I8x16ReplaceLane => "I8x16ReplaceLane"
  | .I16x8ExtractLaneS => "I16x8ExtractLaneS"
  | .I16x8ExtractLaneU => "I16x8ExtractLaneU"
  | .I16x8ReplaceLane => "I16x8ReplaceLane"
  | .I32x4ExtractLane => "I32x4ExtractLane"
  | .I32x4ReplaceLane => "I32x4ReplaceLane"
  | .I64x2ExtractLane => "I64x2ExtractLane"
  | .I64x2ReplaceLane => "I64x2ReplaceLane"
  | .F32x4ExtractLane => "F32x4ExtractLane"
  | .F32x4ReplaceLane => "F32x4ReplaceLane"
  | .F64x2ExtractLane => "F64x2ExtractLane"
  | .F64x2ReplaceLane => "F64x2ReplaceLane"

mutual
/-- src/core/instruction.rs:7-520 -/
def Instr.dbg (t : StdText) : Instr → Dbg
  | .plain op => .word op.text
  | .mem op m => .tuple op.text [Debug.dbg t m]
  | .memLane op m l => .tuple op.text [Debug.dbg t m, Debug.dbg t l]
  | .lane op l => .tuple op.text [Debug.dbg t l]
  | .Block bt body => .tuple "Block" [Debug.dbg t bt, .list (instrsDbg t body)]
  | .Loop bt body => .tuple "Loop" [Debug.dbg t bt, .list (instrsDbg t body)]
  | .If bt thenBody elseBody => .tuple "If" [Debug.dbg t bt, .list (instrsDbg t thenBody), instrsOptDbg t elseBody]
  | .Br l => .tuple "Br" [Debug.dbg t l]
  | .BrIf l => .tuple "BrIf" [Debug.dbg t l]
  | .BrTable ls l => .tuple "BrTable" [Debug.dbg t ls, Debug.dbg t l]
  | .BrOnNull l => .tuple "BrOnNull" [Debug.dbg t l]
  | .BrOnNonNull l => .tuple "BrOnNonNull" [Debug.dbg t l]
  | .BrOnCast l rt1 rt2 => .tuple "BrOnCast" [Debug.dbg t l, Debug.dbg t rt1, Debug.dbg t rt2]
  | .BrOnCastFail l rt1 rt2 => .tuple "BrOnCastFail" [Debug.dbg t l, Debug.dbg t rt1, Debug.dbg t rt2]
  | .Call x => .tuple "Call" [Debug.dbg t x]
  | .CallRef x => .tuple "CallRef" [Debug.dbg t x]
  | .CallIndirect x y => .tuple "CallIndirect" [Debug.dbg t x, Debug.dbg t y]
  | .ReturnCall x => .tuple "ReturnCall" [Debug.dbg t x]
  | .ReturnCallRef x => .tuple "ReturnCallRef" [Debug.dbg t x]
  | .ReturnCallIndirect x y => .tuple "ReturnCallIndirect" [Debug.dbg t x, Debug.dbg t y]
  | .Throw x => .tuple "Throw" [Debug.dbg t x]
  | .TryTable bt cs body => .tuple "TryTable" [Debug.dbg t bt, Debug.dbg t cs, .list (instrsDbg t body)]
  | .RefFunc x => .tuple "RefFunc" [Debug.dbg t x]
  | .RefNull ht => .tuple "RefNull" [Debug.dbg t ht]
  | .RefTest rt => .tuple "RefTest" [Debug.dbg t rt]
  | .RefCast rt => .tuple "RefCast" [Debug.dbg t rt]
  | .StructNew x => .tuple "StructNew" [Debug.dbg t x]
  | .StructNewDefault x => .tuple "StructNewDefault" [Debug.dbg t x]
  | .StructGet x i => .tuple "StructGet" [Debug.dbg t x, Debug.dbg t i]
  | .StructGetS x i => .tuple "StructGetS" [Debug.dbg t x, Debug.dbg t i]
  | .StructGetU x i => .tuple "StructGetU" [Debug.dbg t x, Debug.dbg t i]
  | .StructSet x i => .tuple "StructSet" [Debug.dbg t x, Debug.dbg t i]
  | .ArrayNew x => .tuple "ArrayNew" [Debug.dbg t x]
  | .ArrayNewDefault x => .tuple "ArrayNewDefault" [Debug.dbg t x]
  | .ArrayNewFixed x n => .tuple "ArrayNewFixed" [Debug.dbg t x, Debug.dbg t n]
  | .ArrayNewData x y => .tuple "ArrayNewData" [Debug.dbg t x, Debug.dbg t y]
  | .ArrayNewElem x y => .tuple "ArrayNewElem" [Debug.dbg t x, Debug.dbg t y]
  | .ArrayGet x => .tuple "ArrayGet" [Debug.dbg t x]
  | .ArrayGetS x => .tuple "ArrayGetS" [Debug.dbg t x]
  | .ArrayGetU x => .tuple "ArrayGetU" [Debug.dbg t x]
  | .ArraySet x => .tuple "ArraySet" [Debug.dbg t x]
  | .ArrayFill x => .tuple "ArrayFill" [Debug.dbg t x]
  | .ArrayCopy x y => .tuple "ArrayCopy" [Debug.dbg t x, Debug.dbg t y]
  | .ArrayInitData x y => .tuple "ArrayInitData" [Debug.dbg t x, Debug.dbg t y]
  | .ArrayInitElem x y => .tuple "ArrayInitElem" [Debug.dbg t x, Debug.dbg t y]
  | .Select ts => .tuple "Select" [Debug.dbg t ts]
  | .LocalGet x => .tuple "LocalGet" [Debug.dbg t x]
  | .LocalSet x => .tuple "LocalSet" [Debug.dbg t x]
  | .LocalTee x => .tuple "LocalTee" [Debug.dbg t x]
  | .GlobalGet x => .tuple "GlobalGet" [Debug.dbg t x]
  | .GlobalSet x => .tuple "GlobalSet" [Debug.dbg t x]
  | .TableGet x => .tuple "TableGet" [Debug.dbg t x]
  | .TableSet x => .tuple "TableSet" [Debug.dbg t x]
  | .TableInit x y => .tuple "TableInit" [Debug.dbg t x, Debug.dbg t y]
  | .ElemDrop x => .tuple "ElemDrop" [Debug.dbg t x]
  | .TableCopy x y => .tuple "TableCopy" [Debug.dbg t x, Debug.dbg t y]
  | .TableGrow x => .tuple "TableGrow" [Debug.dbg t x]
  | .TableSize x => .tuple "TableSize" [Debug.dbg t x]
  | .TableFill x => .tuple "TableFill" [Debug.dbg t x]
  | .MemorySize x => .tuple "MemorySize" [Debug.dbg t x]
  | .MemoryGrow x => .tuple "MemoryGrow" [Debug.dbg t x]
  | .MemoryInit x y => .tuple "MemoryInit" [Debug.dbg t x, Debug.dbg t y]
  | .DataDrop x => .tuple "DataDrop" [Debug.dbg t x]
  | .MemoryCopy x y => .tuple "MemoryCopy" [Debug.dbg t x, Debug.dbg t y]
  | .MemoryFill x => .tuple "MemoryFill" [Debug.dbg t x]
  | .I32Const v => .tuple "I32Const" [Debug.dbg t v]
  | .I64Const v => .tuple "I64Const" [Debug.dbg t v]
  | .F32Const bits => .tuple "F32Const" [.word (t.f32 bits)]
  | .F64Const bits => .tuple "F64Const" [.word (t.f64 bits)]
  | .V128Const v => .tuple "V128Const" [Debug.dbg t v]
  | .I8x16Shuffle lanes => .tuple "I8x16Shuffle" [Debug.dbg t (lanes.val.map LaneIdx.mk)]
/-- `Vec<Instruction>` (src/core/instruction.rs:7-520) -/
def instrsDbg (t : StdText) : List Instr → List Dbg
  | [] => []
  | i :: is => i.dbg t :: instrsDbg t is
/-- `Option<Vec<Instruction>>` (src/core/instruction.rs:7-520) -/
def instrsOptDbg (t : StdText) : Option (List Instr) → Dbg
  | none => .word "None"
  | some is => .tuple "Some" [.list (instrsDbg t is)]
end

/-- src/core/mod.rs:69-85 -/
instance : Debug Func := ⟨fun t x => .struct "Func" [("type", dbg t x.type), ("locals", dbg t x.locals), ("body", .list (instrsDbg t x.body))]⟩

/-- src/core/mod.rs:95-99 -/
instance : Debug Global := ⟨fun t x => .struct "Global" [("type", dbg t x.type), ("init", .list (instrsDbg t x.init))]⟩

/-- src/core/mod.rs:118-122 -/
instance : Debug DataMode where
  dbg t
    | .Passive => .word "Passive"
    | .Active x0 x1 => .struct "Active" [("memory", dbg t x0), ("offset", .list (instrsDbg t x1))]

/-- src/core/mod.rs:112-116 -/
instance : Debug Data := ⟨fun t x => .struct "Data" [("init", dbg t x.init), ("mode", dbg t x.mode)]⟩

/-- src/core/mod.rs:146-151 -/
instance : Debug ElemMode where
  dbg t
    | .Passive => .word "Passive"
    | .Active x0 x1 => .struct "Active" [("table", dbg t x0), ("offset", .list (instrsDbg t x1))]
    | .Declare => .word "Declare"

/-- src/core/mod.rs:139-144 -/
instance : Debug Elem := ⟨fun t x => .struct "Elem" [("type", dbg t x.type), ("init", .list (x.init.map fun e => .list (instrsDbg t e))), ("mode", dbg t x.mode)]⟩

/-- src/core/mod.rs:162-163 -/
instance : Debug Table := ⟨fun t x => .tuple "Table" [dbg t x.type, .list (instrsDbg t x.init)]⟩

/-- src/core/module.rs:14-159 -/
instance : Debug Module := ⟨fun t x => .struct "Module" [("version", dbg t x.version), ("parsed_section_kinds", dbg t x.parsed_section_kinds), ("section_headers", dbg t x.section_headers), ("custom_sections", dbg t x.custom_sections), ("types", dbg t x.types), ("funcs", dbg t x.funcs), ("tables", dbg t x.tables), ("mems", dbg t x.mems), ("globals", dbg t x.globals), ("elems", dbg t x.elems), ("data_count", dbg t x.data_count), ("datas", dbg t x.datas), ("start", dbg t x.start), ("imports", dbg t x.imports), ("exports", dbg t x.exports), ("tags", dbg t x.tags)]⟩

end Wadec
