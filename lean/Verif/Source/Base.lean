import Verif.Source.Prelude

/-! Generated by tools/rs2lean.py from src/core/instruction.rs, src/core/module.rs and the `#[from]`
attributes of src/decode/**/*.rs.  Do not edit. -/

namespace Wadec.Source

/-! ### The variants of `Instruction` under their Rust names -/

/-- src/core/instruction.rs:10 -/
@[match_pattern] abbrev Instruction.Unreachable : Instr := .plain .Unreachable
/-- src/core/instruction.rs:11 -/
@[match_pattern] abbrev Instruction.Nop : Instr := .plain .Nop
/-- src/core/instruction.rs:12 -/
@[match_pattern] abbrev Instruction.Block (a0 : BlockType) (a1 : (List Instr)) : Instr := .Block a0 a1
/-- src/core/instruction.rs:13 -/
@[match_pattern] abbrev Instruction.Loop (a0 : BlockType) (a1 : (List Instr)) : Instr := .Loop a0 a1
/-- src/core/instruction.rs:14 -/
@[match_pattern] abbrev Instruction.If (a0 : BlockType) (a1 : (List Instr)) (a2 : (Option (List Instr))) : Instr := .If a0 a1 a2
/-- src/core/instruction.rs:15 -/
@[match_pattern] abbrev Instruction.Br (a0 : LabelIdx) : Instr := .Br a0
/-- src/core/instruction.rs:16 -/
@[match_pattern] abbrev Instruction.BrIf (a0 : LabelIdx) : Instr := .BrIf a0
/-- src/core/instruction.rs:17 -/
@[match_pattern] abbrev Instruction.BrTable (a0 : (List LabelIdx)) (a1 : LabelIdx) : Instr := .BrTable a0 a1
/-- src/core/instruction.rs:18 -/
@[match_pattern] abbrev Instruction.BrOnNull (a0 : LabelIdx) : Instr := .BrOnNull a0
/-- src/core/instruction.rs:19 -/
@[match_pattern] abbrev Instruction.BrOnNonNull (a0 : LabelIdx) : Instr := .BrOnNonNull a0
/-- src/core/instruction.rs:20 -/
@[match_pattern] abbrev Instruction.BrOnCast (a0 : LabelIdx) (a1 : RefType) (a2 : RefType) : Instr := .BrOnCast a0 a1 a2
/-- src/core/instruction.rs:21 -/
@[match_pattern] abbrev Instruction.BrOnCastFail (a0 : LabelIdx) (a1 : RefType) (a2 : RefType) : Instr := .BrOnCastFail a0 a1 a2
/-- src/core/instruction.rs:22 -/
@[match_pattern] abbrev Instruction.Call (a0 : FuncIdx) : Instr := .Call a0
/-- src/core/instruction.rs:23 -/
@[match_pattern] abbrev Instruction.CallRef (a0 : TypeIdx) : Instr := .CallRef a0
/-- src/core/instruction.rs:24 -/
@[match_pattern] abbrev Instruction.CallIndirect (a0 : TableIdx) (a1 : TypeIdx) : Instr := .CallIndirect a0 a1
/-- src/core/instruction.rs:25 -/
@[match_pattern] abbrev Instruction.Return : Instr := .plain .Return
/-- src/core/instruction.rs:26 -/
@[match_pattern] abbrev Instruction.ReturnCall (a0 : FuncIdx) : Instr := .ReturnCall a0
/-- src/core/instruction.rs:27 -/
@[match_pattern] abbrev Instruction.ReturnCallRef (a0 : TypeIdx) : Instr := .ReturnCallRef a0
/-- src/core/instruction.rs:28 -/
@[match_pattern] abbrev Instruction.ReturnCallIndirect (a0 : TableIdx) (a1 : TypeIdx) : Instr := .ReturnCallIndirect a0 a1
/-- src/core/instruction.rs:29 -/
@[match_pattern] abbrev Instruction.Throw (a0 : TagIdx) : Instr := .Throw a0
/-- src/core/instruction.rs:30 -/
@[match_pattern] abbrev Instruction.ThrowRef : Instr := .plain .ThrowRef
/-- src/core/instruction.rs:31 -/
@[match_pattern] abbrev Instruction.TryTable (a0 : BlockType) (a1 : (List Catch)) (a2 : (List Instr)) : Instr := .TryTable a0 a1 a2
/-- src/core/instruction.rs:34 -/
@[match_pattern] abbrev Instruction.RefFunc (a0 : FuncIdx) : Instr := .RefFunc a0
/-- src/core/instruction.rs:35 -/
@[match_pattern] abbrev Instruction.RefNull (a0 : HeapType) : Instr := .RefNull a0
/-- src/core/instruction.rs:36 -/
@[match_pattern] abbrev Instruction.RefIsNull : Instr := .plain .RefIsNull
/-- src/core/instruction.rs:37 -/
@[match_pattern] abbrev Instruction.RefAsNonNull : Instr := .plain .RefAsNonNull
/-- src/core/instruction.rs:38 -/
@[match_pattern] abbrev Instruction.RefEq : Instr := .plain .RefEq
/-- src/core/instruction.rs:39 -/
@[match_pattern] abbrev Instruction.RefTest (a0 : RefType) : Instr := .RefTest a0
/-- src/core/instruction.rs:40 -/
@[match_pattern] abbrev Instruction.RefCast (a0 : RefType) : Instr := .RefCast a0
/-- src/core/instruction.rs:43 -/
@[match_pattern] abbrev Instruction.StructNew (a0 : TypeIdx) : Instr := .StructNew a0
/-- src/core/instruction.rs:44 -/
@[match_pattern] abbrev Instruction.StructNewDefault (a0 : TypeIdx) : Instr := .StructNewDefault a0
/-- src/core/instruction.rs:45 -/
@[match_pattern] abbrev Instruction.StructGet (a0 : TypeIdx) (a1 : UInt32) : Instr := .StructGet a0 a1
/-- src/core/instruction.rs:46 -/
@[match_pattern] abbrev Instruction.StructGetS (a0 : TypeIdx) (a1 : UInt32) : Instr := .StructGetS a0 a1
/-- src/core/instruction.rs:47 -/
@[match_pattern] abbrev Instruction.StructGetU (a0 : TypeIdx) (a1 : UInt32) : Instr := .StructGetU a0 a1
/-- src/core/instruction.rs:48 -/
@[match_pattern] abbrev Instruction.StructSet (a0 : TypeIdx) (a1 : UInt32) : Instr := .StructSet a0 a1
/-- src/core/instruction.rs:49 -/
@[match_pattern] abbrev Instruction.ArrayNew (a0 : TypeIdx) : Instr := .ArrayNew a0
/-- src/core/instruction.rs:50 -/
@[match_pattern] abbrev Instruction.ArrayNewDefault (a0 : TypeIdx) : Instr := .ArrayNewDefault a0
/-- src/core/instruction.rs:51 -/
@[match_pattern] abbrev Instruction.ArrayNewFixed (a0 : TypeIdx) (a1 : UInt32) : Instr := .ArrayNewFixed a0 a1
/-- src/core/instruction.rs:52 -/
@[match_pattern] abbrev Instruction.ArrayNewData (a0 : TypeIdx) (a1 : DataIdx) : Instr := .ArrayNewData a0 a1
/-- src/core/instruction.rs:53 -/
@[match_pattern] abbrev Instruction.ArrayNewElem (a0 : TypeIdx) (a1 : ElemIdx) : Instr := .ArrayNewElem a0 a1
/-- src/core/instruction.rs:54 -/
@[match_pattern] abbrev Instruction.ArrayGet (a0 : TypeIdx) : Instr := .ArrayGet a0
/-- src/core/instruction.rs:55 -/
@[match_pattern] abbrev Instruction.ArrayGetS (a0 : TypeIdx) : Instr := .ArrayGetS a0
/-- src/core/instruction.rs:56 -/
@[match_pattern] abbrev Instruction.ArrayGetU (a0 : TypeIdx) : Instr := .ArrayGetU a0
/-- src/core/instruction.rs:57 -/
@[match_pattern] abbrev Instruction.ArraySet (a0 : TypeIdx) : Instr := .ArraySet a0
/-- src/core/instruction.rs:58 -/
@[match_pattern] abbrev Instruction.ArrayLen : Instr := .plain .ArrayLen
/-- src/core/instruction.rs:59 -/
@[match_pattern] abbrev Instruction.ArrayFill (a0 : TypeIdx) : Instr := .ArrayFill a0
/-- src/core/instruction.rs:60 -/
@[match_pattern] abbrev Instruction.ArrayCopy (a0 : TypeIdx) (a1 : TypeIdx) : Instr := .ArrayCopy a0 a1
/-- src/core/instruction.rs:61 -/
@[match_pattern] abbrev Instruction.ArrayInitData (a0 : TypeIdx) (a1 : DataIdx) : Instr := .ArrayInitData a0 a1
/-- src/core/instruction.rs:62 -/
@[match_pattern] abbrev Instruction.ArrayInitElem (a0 : TypeIdx) (a1 : ElemIdx) : Instr := .ArrayInitElem a0 a1
/-- src/core/instruction.rs:63 -/
@[match_pattern] abbrev Instruction.AnyConvertExtern : Instr := .plain .AnyConvertExtern
/-- src/core/instruction.rs:64 -/
@[match_pattern] abbrev Instruction.ExternConvertAny : Instr := .plain .ExternConvertAny
/-- src/core/instruction.rs:65 -/
@[match_pattern] abbrev Instruction.RefI31 : Instr := .plain .RefI31
/-- src/core/instruction.rs:66 -/
@[match_pattern] abbrev Instruction.I31GetS : Instr := .plain .I31GetS
/-- src/core/instruction.rs:67 -/
@[match_pattern] abbrev Instruction.I31GetU : Instr := .plain .I31GetU
/-- src/core/instruction.rs:70 -/
@[match_pattern] abbrev Instruction.Drop : Instr := .plain .Drop
/-- src/core/instruction.rs:71 -/
@[match_pattern] abbrev Instruction.Select (a0 : (Option (List ValType))) : Instr := .Select a0
/-- src/core/instruction.rs:74 -/
@[match_pattern] abbrev Instruction.LocalGet (a0 : LocalIdx) : Instr := .LocalGet a0
/-- src/core/instruction.rs:75 -/
@[match_pattern] abbrev Instruction.LocalSet (a0 : LocalIdx) : Instr := .LocalSet a0
/-- src/core/instruction.rs:76 -/
@[match_pattern] abbrev Instruction.LocalTee (a0 : LocalIdx) : Instr := .LocalTee a0
/-- src/core/instruction.rs:77 -/
@[match_pattern] abbrev Instruction.GlobalGet (a0 : GlobalIdx) : Instr := .GlobalGet a0
/-- src/core/instruction.rs:78 -/
@[match_pattern] abbrev Instruction.GlobalSet (a0 : GlobalIdx) : Instr := .GlobalSet a0
/-- src/core/instruction.rs:81 -/
@[match_pattern] abbrev Instruction.TableGet (a0 : TableIdx) : Instr := .TableGet a0
/-- src/core/instruction.rs:82 -/
@[match_pattern] abbrev Instruction.TableSet (a0 : TableIdx) : Instr := .TableSet a0
/-- src/core/instruction.rs:83 -/
@[match_pattern] abbrev Instruction.TableInit (a0 : TableIdx) (a1 : ElemIdx) : Instr := .TableInit a0 a1
/-- src/core/instruction.rs:84 -/
@[match_pattern] abbrev Instruction.ElemDrop (a0 : ElemIdx) : Instr := .ElemDrop a0
/-- src/core/instruction.rs:85 -/
@[match_pattern] abbrev Instruction.TableCopy (a0 : TableIdx) (a1 : TableIdx) : Instr := .TableCopy a0 a1
/-- src/core/instruction.rs:86 -/
@[match_pattern] abbrev Instruction.TableGrow (a0 : TableIdx) : Instr := .TableGrow a0
/-- src/core/instruction.rs:87 -/
@[match_pattern] abbrev Instruction.TableSize (a0 : TableIdx) : Instr := .TableSize a0
/-- src/core/instruction.rs:88 -/
@[match_pattern] abbrev Instruction.TableFill (a0 : TableIdx) : Instr := .TableFill a0
/-- src/core/instruction.rs:91 -/
@[match_pattern] abbrev Instruction.I32Load (a0 : Memarg) : Instr := .mem .I32Load a0
/-- src/core/instruction.rs:92 -/
@[match_pattern] abbrev Instruction.I64Load (a0 : Memarg) : Instr := .mem .I64Load a0
/-- src/core/instruction.rs:93 -/
@[match_pattern] abbrev Instruction.F32Load (a0 : Memarg) : Instr := .mem .F32Load a0
/-- src/core/instruction.rs:94 -/
@[match_pattern] abbrev Instruction.F64Load (a0 : Memarg) : Instr := .mem .F64Load a0
/-- src/core/instruction.rs:95 -/
@[match_pattern] abbrev Instruction.I32Load8s (a0 : Memarg) : Instr := .mem .I32Load8s a0
/-- src/core/instruction.rs:96 -/
@[match_pattern] abbrev Instruction.I32Load8u (a0 : Memarg) : Instr := .mem .I32Load8u a0
/-- src/core/instruction.rs:97 -/
@[match_pattern] abbrev Instruction.I32Load16s (a0 : Memarg) : Instr := .mem .I32Load16s a0
/-- src/core/instruction.rs:98 -/
@[match_pattern] abbrev Instruction.I32Load16u (a0 : Memarg) : Instr := .mem .I32Load16u a0
/-- src/core/instruction.rs:99 -/
@[match_pattern] abbrev Instruction.I64Load8s (a0 : Memarg) : Instr := .mem .I64Load8s a0
/-- src/core/instruction.rs:100 -/
@[match_pattern] abbrev Instruction.I64Load8u (a0 : Memarg) : Instr := .mem .I64Load8u a0
/-- src/core/instruction.rs:101 -/
@[match_pattern] abbrev Instruction.I64Load16s (a0 : Memarg) : Instr := .mem .I64Load16s a0
/-- src/core/instruction.rs:102 -/
@[match_pattern] abbrev Instruction.I64Load16u (a0 : Memarg) : Instr := .mem .I64Load16u a0
/-- src/core/instruction.rs:103 -/
@[match_pattern] abbrev Instruction.I64Load32s (a0 : Memarg) : Instr := .mem .I64Load32s a0
/-- src/core/instruction.rs:104 -/
@[match_pattern] abbrev Instruction.I64Load32u (a0 : Memarg) : Instr := .mem .I64Load32u a0
/-- src/core/instruction.rs:105 -/
@[match_pattern] abbrev Instruction.I32Store (a0 : Memarg) : Instr := .mem .I32Store a0
/-- src/core/instruction.rs:106 -/
@[match_pattern] abbrev Instruction.I64Store (a0 : Memarg) : Instr := .mem .I64Store a0
/-- src/core/instruction.rs:107 -/
@[match_pattern] abbrev Instruction.F32Store (a0 : Memarg) : Instr := .mem .F32Store a0
/-- src/core/instruction.rs:108 -/
@[match_pattern] abbrev Instruction.F64Store (a0 : Memarg) : Instr := .mem .F64Store a0
/-- src/core/instruction.rs:109 -/
@[match_pattern] abbrev Instruction.I32Store8 (a0 : Memarg) : Instr := .mem .I32Store8 a0
/-- src/core/instruction.rs:110 -/
@[match_pattern] abbrev Instruction.I32Store16 (a0 : Memarg) : Instr := .mem .I32Store16 a0
/-- src/core/instruction.rs:111 -/
@[match_pattern] abbrev Instruction.I64Store8 (a0 : Memarg) : Instr := .mem .I64Store8 a0
/-- src/core/instruction.rs:112 -/
@[match_pattern] abbrev Instruction.I64Store16 (a0 : Memarg) : Instr := .mem .I64Store16 a0
/-- src/core/instruction.rs:113 -/
@[match_pattern] abbrev Instruction.I64Store32 (a0 : Memarg) : Instr := .mem .I64Store32 a0
/-- src/core/instruction.rs:114 -/
@[match_pattern] abbrev Instruction.MemorySize (a0 : MemIdx) : Instr := .MemorySize a0
/-- src/core/instruction.rs:115 -/
@[match_pattern] abbrev Instruction.MemoryGrow (a0 : MemIdx) : Instr := .MemoryGrow a0
/-- src/core/instruction.rs:116 -/
@[match_pattern] abbrev Instruction.MemoryInit (a0 : MemIdx) (a1 : DataIdx) : Instr := .MemoryInit a0 a1
/-- src/core/instruction.rs:117 -/
@[match_pattern] abbrev Instruction.DataDrop (a0 : DataIdx) : Instr := .DataDrop a0
/-- src/core/instruction.rs:118 -/
@[match_pattern] abbrev Instruction.MemoryCopy (a0 : MemIdx) (a1 : MemIdx) : Instr := .MemoryCopy a0 a1
/-- src/core/instruction.rs:119 -/
@[match_pattern] abbrev Instruction.MemoryFill (a0 : MemIdx) : Instr := .MemoryFill a0
/-- src/core/instruction.rs:122 -/
@[match_pattern] abbrev Instruction.I32Const (a0 : Int32) : Instr := .I32Const a0
/-- src/core/instruction.rs:123 -/
@[match_pattern] abbrev Instruction.I64Const (a0 : Int64) : Instr := .I64Const a0
/-- src/core/instruction.rs:124 -/
@[match_pattern] abbrev Instruction.F32Const (a0 : UInt32) : Instr := .F32Const a0
/-- src/core/instruction.rs:125 -/
@[match_pattern] abbrev Instruction.F64Const (a0 : UInt64) : Instr := .F64Const a0
/-- src/core/instruction.rs:126 -/
@[match_pattern] abbrev Instruction.I32Eqz : Instr := .plain .I32Eqz
/-- src/core/instruction.rs:127 -/
@[match_pattern] abbrev Instruction.I32Eq : Instr := .plain .I32Eq
/-- src/core/instruction.rs:128 -/
@[match_pattern] abbrev Instruction.I32Ne : Instr := .plain .I32Ne
/-- src/core/instruction.rs:129 -/
@[match_pattern] abbrev Instruction.I32LtS : Instr := .plain .I32LtS
/-- src/core/instruction.rs:130 -/
@[match_pattern] abbrev Instruction.I32LtU : Instr := .plain .I32LtU
/-- src/core/instruction.rs:131 -/
@[match_pattern] abbrev Instruction.I32GtS : Instr := .plain .I32GtS
/-- src/core/instruction.rs:132 -/
@[match_pattern] abbrev Instruction.I32GtU : Instr := .plain .I32GtU
/-- src/core/instruction.rs:133 -/
@[match_pattern] abbrev Instruction.I32LeS : Instr := .plain .I32LeS
/-- src/core/instruction.rs:134 -/
@[match_pattern] abbrev Instruction.I32LeU : Instr := .plain .I32LeU
/-- src/core/instruction.rs:135 -/
@[match_pattern] abbrev Instruction.I32GeS : Instr := .plain .I32GeS
/-- src/core/instruction.rs:136 -/
@[match_pattern] abbrev Instruction.I32GeU : Instr := .plain .I32GeU
/-- src/core/instruction.rs:137 -/
@[match_pattern] abbrev Instruction.I64Eqz : Instr := .plain .I64Eqz
/-- src/core/instruction.rs:138 -/
@[match_pattern] abbrev Instruction.I64Eq : Instr := .plain .I64Eq
/-- src/core/instruction.rs:139 -/
@[match_pattern] abbrev Instruction.I64Ne : Instr := .plain .I64Ne
/-- src/core/instruction.rs:140 -/
@[match_pattern] abbrev Instruction.I64LtS : Instr := .plain .I64LtS
/-- src/core/instruction.rs:141 -/
@[match_pattern] abbrev Instruction.I64LtU : Instr := .plain .I64LtU
/-- src/core/instruction.rs:142 -/
@[match_pattern] abbrev Instruction.I64GtS : Instr := .plain .I64GtS
/-- src/core/instruction.rs:143 -/
@[match_pattern] abbrev Instruction.I64GtU : Instr := .plain .I64GtU
/-- src/core/instruction.rs:144 -/
@[match_pattern] abbrev Instruction.I64LeS : Instr := .plain .I64LeS
/-- src/core/instruction.rs:145 -/
@[match_pattern] abbrev Instruction.I64LeU : Instr := .plain .I64LeU
/-- src/core/instruction.rs:146 -/
@[match_pattern] abbrev Instruction.I64GeS : Instr := .plain .I64GeS
/-- src/core/instruction.rs:147 -/
@[match_pattern] abbrev Instruction.I64GeU : Instr := .plain .I64GeU
/-- src/core/instruction.rs:148 -/
@[match_pattern] abbrev Instruction.F32Eq : Instr := .plain .F32Eq
/-- src/core/instruction.rs:149 -/
@[match_pattern] abbrev Instruction.F32Ne : Instr := .plain .F32Ne
/-- src/core/instruction.rs:150 -/
@[match_pattern] abbrev Instruction.F32Lt : Instr := .plain .F32Lt
/-- src/core/instruction.rs:151 -/
@[match_pattern] abbrev Instruction.F32Gt : Instr := .plain .F32Gt
/-- src/core/instruction.rs:152 -/
@[match_pattern] abbrev Instruction.F32Le : Instr := .plain .F32Le
/-- src/core/instruction.rs:153 -/
@[match_pattern] abbrev Instruction.F32Ge : Instr := .plain .F32Ge
/-- src/core/instruction.rs:154 -/
@[match_pattern] abbrev Instruction.F64Eq : Instr := .plain .F64Eq
/-- src/core/instruction.rs:155 -/
@[match_pattern] abbrev Instruction.F64Ne : Instr := .plain .F64Ne
/-- src/core/instruction.rs:156 -/
@[match_pattern] abbrev Instruction.F64Lt : Instr := .plain .F64Lt
/-- src/core/instruction.rs:157 -/
@[match_pattern] abbrev Instruction.F64Gt : Instr := .plain .F64Gt
/-- src/core/instruction.rs:158 -/
@[match_pattern] abbrev Instruction.F64Le : Instr := .plain .F64Le
/-- src/core/instruction.rs:159 -/
@[match_pattern] abbrev Instruction.F64Ge : Instr := .plain .F64Ge
/-- src/core/instruction.rs:160 -/
@[match_pattern] abbrev Instruction.I32Clz : Instr := .plain .I32Clz
/-- src/core/instruction.rs:161 -/
@[match_pattern] abbrev Instruction.I32Ctz : Instr := .plain .I32Ctz
/-- src/core/instruction.rs:162 -/
@[match_pattern] abbrev Instruction.I32Popcnt : Instr := .plain .I32Popcnt
/-- src/core/instruction.rs:163 -/
@[match_pattern] abbrev Instruction.I32Add : Instr := .plain .I32Add
/-- src/core/instruction.rs:164 -/
@[match_pattern] abbrev Instruction.I32Sub : Instr := .plain .I32Sub
/-- src/core/instruction.rs:165 -/
@[match_pattern] abbrev Instruction.I32Mul : Instr := .plain .I32Mul
/-- src/core/instruction.rs:166 -/
@[match_pattern] abbrev Instruction.I32DivS : Instr := .plain .I32DivS
/-- src/core/instruction.rs:167 -/
@[match_pattern] abbrev Instruction.I32DivU : Instr := .plain .I32DivU
/-- src/core/instruction.rs:168 -/
@[match_pattern] abbrev Instruction.I32RemS : Instr := .plain .I32RemS
/-- src/core/instruction.rs:169 -/
@[match_pattern] abbrev Instruction.I32RemU : Instr := .plain .I32RemU
/-- src/core/instruction.rs:170 -/
@[match_pattern] abbrev Instruction.I32And : Instr := .plain .I32And
/-- src/core/instruction.rs:171 -/
@[match_pattern] abbrev Instruction.I32Or : Instr := .plain .I32Or
/-- src/core/instruction.rs:172 -/
@[match_pattern] abbrev Instruction.I32Xor : Instr := .plain .I32Xor
/-- src/core/instruction.rs:173 -/
@[match_pattern] abbrev Instruction.I32Shl : Instr := .plain .I32Shl
/-- src/core/instruction.rs:174 -/
@[match_pattern] abbrev Instruction.I32ShrS : Instr := .plain .I32ShrS
/-- src/core/instruction.rs:175 -/
@[match_pattern] abbrev Instruction.I32ShrU : Instr := .plain .I32ShrU
/-- src/core/instruction.rs:176 -/
@[match_pattern] abbrev Instruction.I32Rotl : Instr := .plain .I32Rotl
/-- src/core/instruction.rs:177 -/
@[match_pattern] abbrev Instruction.I32Rotr : Instr := .plain .I32Rotr
/-- src/core/instruction.rs:178 -/
@[match_pattern] abbrev Instruction.I64Clz : Instr := .plain .I64Clz
/-- src/core/instruction.rs:179 -/
@[match_pattern] abbrev Instruction.I64Ctz : Instr := .plain .I64Ctz
/-- src/core/instruction.rs:180 -/
@[match_pattern] abbrev Instruction.I64Popcnt : Instr := .plain .I64Popcnt
/-- src/core/instruction.rs:181 -/
@[match_pattern] abbrev Instruction.I64Add : Instr := .plain .I64Add
/-- src/core/instruction.rs:182 -/
@[match_pattern] abbrev Instruction.I64Sub : Instr := .plain .I64Sub
/-- src/core/instruction.rs:183 -/
@[match_pattern] abbrev Instruction.I64Mul : Instr := .plain .I64Mul
/-- src/core/instruction.rs:184 -/
@[match_pattern] abbrev Instruction.I64DivS : Instr := .plain .I64DivS
/-- src/core/instruction.rs:185 -/
@[match_pattern] abbrev Instruction.I64DivU : Instr := .plain .I64DivU
/-- src/core/instruction.rs:186 -/
@[match_pattern] abbrev Instruction.I64RemS : Instr := .plain .I64RemS
/-- src/core/instruction.rs:187 -/
@[match_pattern] abbrev Instruction.I64RemU : Instr := .plain .I64RemU
/-- src/core/instruction.rs:188 -/
@[match_pattern] abbrev Instruction.I64And : Instr := .plain .I64And
/-- src/core/instruction.rs:189 -/
@[match_pattern] abbrev Instruction.I64Or : Instr := .plain .I64Or
/-- src/core/instruction.rs:190 -/
@[match_pattern] abbrev Instruction.I64Xor : Instr := .plain .I64Xor
/-- src/core/instruction.rs:191 -/
@[match_pattern] abbrev Instruction.I64Shl : Instr := .plain .I64Shl
/-- src/core/instruction.rs:192 -/
@[match_pattern] abbrev Instruction.I64ShrS : Instr := .plain .I64ShrS
/-- src/core/instruction.rs:193 -/
@[match_pattern] abbrev Instruction.I64ShrU : Instr := .plain .I64ShrU
/-- src/core/instruction.rs:194 -/
@[match_pattern] abbrev Instruction.I64Rotl : Instr := .plain .I64Rotl
/-- src/core/instruction.rs:195 -/
@[match_pattern] abbrev Instruction.I64Rotr : Instr := .plain .I64Rotr
/-- src/core/instruction.rs:196 -/
@[match_pattern] abbrev Instruction.F32Abs : Instr := .plain .F32Abs
/-- src/core/instruction.rs:197 -/
@[match_pattern] abbrev Instruction.F32Neg : Instr := .plain .F32Neg
/-- src/core/instruction.rs:198 -/
@[match_pattern] abbrev Instruction.F32Ceil : Instr := .plain .F32Ceil
/-- src/core/instruction.rs:199 -/
@[match_pattern] abbrev Instruction.F32Floor : Instr := .plain .F32Floor
/-- src/core/instruction.rs:200 -/
@[match_pattern] abbrev Instruction.F32Trunc : Instr := .plain .F32Trunc
/-- src/core/instruction.rs:201 -/
@[match_pattern] abbrev Instruction.F32Nearest : Instr := .plain .F32Nearest
/-- src/core/instruction.rs:202 -/
@[match_pattern] abbrev Instruction.F32Sqrt : Instr := .plain .F32Sqrt
/-- src/core/instruction.rs:203 -/
@[match_pattern] abbrev Instruction.F32Add : Instr := .plain .F32Add
/-- src/core/instruction.rs:204 -/
@[match_pattern] abbrev Instruction.F32Sub : Instr := .plain .F32Sub
/-- src/core/instruction.rs:205 -/
@[match_pattern] abbrev Instruction.F32Mul : Instr := .plain .F32Mul
/-- src/core/instruction.rs:206 -/
@[match_pattern] abbrev Instruction.F32Div : Instr := .plain .F32Div
/-- src/core/instruction.rs:207 -/
@[match_pattern] abbrev Instruction.F32Min : Instr := .plain .F32Min
/-- src/core/instruction.rs:208 -/
@[match_pattern] abbrev Instruction.F32Max : Instr := .plain .F32Max
/-- src/core/instruction.rs:209 -/
@[match_pattern] abbrev Instruction.F32Copysign : Instr := .plain .F32Copysign
/-- src/core/instruction.rs:210 -/
@[match_pattern] abbrev Instruction.F64Abs : Instr := .plain .F64Abs
/-- src/core/instruction.rs:211 -/
@[match_pattern] abbrev Instruction.F64Neg : Instr := .plain .F64Neg
/-- src/core/instruction.rs:212 -/
@[match_pattern] abbrev Instruction.F64Ceil : Instr := .plain .F64Ceil
/-- src/core/instruction.rs:213 -/
@[match_pattern] abbrev Instruction.F64Floor : Instr := .plain .F64Floor
/-- src/core/instruction.rs:214 -/
@[match_pattern] abbrev Instruction.F64Trunc : Instr := .plain .F64Trunc
/-- src/core/instruction.rs:215 -/
@[match_pattern] abbrev Instruction.F64Nearest : Instr := .plain .F64Nearest
/-- src/core/instruction.rs:216 -/
@[match_pattern] abbrev Instruction.F64Sqrt : Instr := .plain .F64Sqrt
/-- src/core/instruction.rs:217 -/
@[match_pattern] abbrev Instruction.F64Add : Instr := .plain .F64Add
/-- src/core/instruction.rs:218 -/
@[match_pattern] abbrev Instruction.F64Sub : Instr := .plain .F64Sub
/-- src/core/instruction.rs:219 -/
@[match_pattern] abbrev Instruction.F64Mul : Instr := .plain .F64Mul
/-- src/core/instruction.rs:220 -/
@[match_pattern] abbrev Instruction.F64Div : Instr := .plain .F64Div
/-- src/core/instruction.rs:221 -/
@[match_pattern] abbrev Instruction.F64Min : Instr := .plain .F64Min
/-- src/core/instruction.rs:222 -/
@[match_pattern] abbrev Instruction.F64Max : Instr := .plain .F64Max
/-- src/core/instruction.rs:223 -/
@[match_pattern] abbrev Instruction.F64Copysign : Instr := .plain .F64Copysign
/-- src/core/instruction.rs:224 -/
@[match_pattern] abbrev Instruction.I32WrapI64 : Instr := .plain .I32WrapI64
/-- src/core/instruction.rs:225 -/
@[match_pattern] abbrev Instruction.I32TruncF32S : Instr := .plain .I32TruncF32S
/-- src/core/instruction.rs:226 -/
@[match_pattern] abbrev Instruction.I32TruncF32U : Instr := .plain .I32TruncF32U
/-- src/core/instruction.rs:227 -/
@[match_pattern] abbrev Instruction.I32TruncF64S : Instr := .plain .I32TruncF64S
/-- src/core/instruction.rs:228 -/
@[match_pattern] abbrev Instruction.I32TruncF64U : Instr := .plain .I32TruncF64U
/-- src/core/instruction.rs:229 -/
@[match_pattern] abbrev Instruction.I64ExtendI32S : Instr := .plain .I64ExtendI32S
/-- src/core/instruction.rs:230 -/
@[match_pattern] abbrev Instruction.I64ExtendI32U : Instr := .plain .I64ExtendI32U
/-- src/core/instruction.rs:231 -/
@[match_pattern] abbrev Instruction.I64TruncF32S : Instr := .plain .I64TruncF32S
/-- src/core/instruction.rs:232 -/
@[match_pattern] abbrev Instruction.I64TruncF32U : Instr := .plain .I64TruncF32U
/-- src/core/instruction.rs:233 -/
@[match_pattern] abbrev Instruction.I64TruncF64S : Instr := .plain .I64TruncF64S
/-- src/core/instruction.rs:234 -/
@[match_pattern] abbrev Instruction.I64TruncF64U : Instr := .plain .I64TruncF64U
/-- src/core/instruction.rs:235 -/
@[match_pattern] abbrev Instruction.F32ConvertI32S : Instr := .plain .F32ConvertI32S
/-- src/core/instruction.rs:236 -/
@[match_pattern] abbrev Instruction.F32ConvertI32U : Instr := .plain .F32ConvertI32U
/-- src/core/instruction.rs:237 -/
@[match_pattern] abbrev Instruction.F32ConvertI64S : Instr := .plain .F32ConvertI64S
/-- src/core/instruction.rs:238 -/
@[match_pattern] abbrev Instruction.F32ConvertI64U : Instr := .plain .F32ConvertI64U
/-- src/core/instruction.rs:239 -/
@[match_pattern] abbrev Instruction.F32DemoteF64 : Instr := .plain .F32DemoteF64
/-- src/core/instruction.rs:240 -/
@[match_pattern] abbrev Instruction.F64ConvertI32S : Instr := .plain .F64ConvertI32S
/-- src/core/instruction.rs:241 -/
@[match_pattern] abbrev Instruction.F64ConvertI32U : Instr := .plain .F64ConvertI32U
/-- src/core/instruction.rs:242 -/
@[match_pattern] abbrev Instruction.F64ConvertI64S : Instr := .plain .F64ConvertI64S
/-- src/core/instruction.rs:243 -/
@[match_pattern] abbrev Instruction.F64ConvertI64U : Instr := .plain .F64ConvertI64U
/-- src/core/instruction.rs:244 -/
@[match_pattern] abbrev Instruction.F64PromoteF32 : Instr := .plain .F64PromoteF32
/-- src/core/instruction.rs:245 -/
@[match_pattern] abbrev Instruction.I32ReinterpretF32 : Instr := .plain .I32ReinterpretF32
/-- src/core/instruction.rs:246 -/
@[match_pattern] abbrev Instruction.I64ReinterpretF64 : Instr := .plain .I64ReinterpretF64
/-- src/core/instruction.rs:247 -/
@[match_pattern] abbrev Instruction.F32ReinterpretI32 : Instr := .plain .F32ReinterpretI32
/-- src/core/instruction.rs:248 -/
@[match_pattern] abbrev Instruction.F64ReinterpretI64 : Instr := .plain .F64ReinterpretI64
/-- src/core/instruction.rs:249 -/
@[match_pattern] abbrev Instruction.I32Extend8S : Instr := .plain .I32Extend8S
/-- src/core/instruction.rs:250 -/
@[match_pattern] abbrev Instruction.I32Extend16S : Instr := .plain .I32Extend16S
/-- src/core/instruction.rs:251 -/
@[match_pattern] abbrev Instruction.I64Extend8S : Instr := .plain .I64Extend8S
/-- src/core/instruction.rs:252 -/
@[match_pattern] abbrev Instruction.I64Extend16S : Instr := .plain .I64Extend16S
/-- src/core/instruction.rs:253 -/
@[match_pattern] abbrev Instruction.I64Extend32S : Instr := .plain .I64Extend32S
/-- src/core/instruction.rs:254 -/
@[match_pattern] abbrev Instruction.I32TruncSatF32S : Instr := .plain .I32TruncSatF32S
/-- src/core/instruction.rs:255 -/
@[match_pattern] abbrev Instruction.I32TruncSatF32U : Instr := .plain .I32TruncSatF32U
/-- src/core/instruction.rs:256 -/
@[match_pattern] abbrev Instruction.I32TruncSatF64S : Instr := .plain .I32TruncSatF64S
/-- src/core/instruction.rs:257 -/
@[match_pattern] abbrev Instruction.I32TruncSatF64U : Instr := .plain .I32TruncSatF64U
/-- src/core/instruction.rs:258 -/
@[match_pattern] abbrev Instruction.I64TruncSatF32S : Instr := .plain .I64TruncSatF32S
/-- src/core/instruction.rs:259 -/
@[match_pattern] abbrev Instruction.I64TruncSatF32U : Instr := .plain .I64TruncSatF32U
/-- src/core/instruction.rs:260 -/
@[match_pattern] abbrev Instruction.I64TruncSatF64S : Instr := .plain .I64TruncSatF64S
/-- src/core/instruction.rs:261 -/
@[match_pattern] abbrev Instruction.I64TruncSatF64U : Instr := .plain .I64TruncSatF64U
/-- src/core/instruction.rs:264 -/
@[match_pattern] abbrev Instruction.V128Load (a0 : Memarg) : Instr := .mem .V128Load a0
/-- src/core/instruction.rs:265 -/
@[match_pattern] abbrev Instruction.V128Load8x8S (a0 : Memarg) : Instr := .mem .V128Load8x8S a0
/-- src/core/instruction.rs:266 -/
@[match_pattern] abbrev Instruction.V128Load8x8U (a0 : Memarg) : Instr := .mem .V128Load8x8U a0
/-- src/core/instruction.rs:267 -/
@[match_pattern] abbrev Instruction.V128Load16x4S (a0 : Memarg) : Instr := .mem .V128Load16x4S a0
/-- src/core/instruction.rs:268 -/
@[match_pattern] abbrev Instruction.V128Load16x4U (a0 : Memarg) : Instr := .mem .V128Load16x4U a0
/-- src/core/instruction.rs:269 -/
@[match_pattern] abbrev Instruction.V128Load32x2S (a0 : Memarg) : Instr := .mem .V128Load32x2S a0
/-- src/core/instruction.rs:270 -/
@[match_pattern] abbrev Instruction.V128Load32x2U (a0 : Memarg) : Instr := .mem .V128Load32x2U a0
/-- src/core/instruction.rs:271 -/
@[match_pattern] abbrev Instruction.V128Load8Splat (a0 : Memarg) : Instr := .mem .V128Load8Splat a0
/-- src/core/instruction.rs:272 -/
@[match_pattern] abbrev Instruction.V128Load16Splat (a0 : Memarg) : Instr := .mem .V128Load16Splat a0
/-- src/core/instruction.rs:273 -/
@[match_pattern] abbrev Instruction.V128Load32Splat (a0 : Memarg) : Instr := .mem .V128Load32Splat a0
/-- src/core/instruction.rs:274 -/
@[match_pattern] abbrev Instruction.V128Load64Splat (a0 : Memarg) : Instr := .mem .V128Load64Splat a0
/-- src/core/instruction.rs:275 -/
@[match_pattern] abbrev Instruction.V128Load32Zero (a0 : Memarg) : Instr := .mem .V128Load32Zero a0
/-- src/core/instruction.rs:276 -/
@[match_pattern] abbrev Instruction.V128Load64Zero (a0 : Memarg) : Instr := .mem .V128Load64Zero a0
/-- src/core/instruction.rs:277 -/
@[match_pattern] abbrev Instruction.V128Store (a0 : Memarg) : Instr := .mem .V128Store a0
/-- src/core/instruction.rs:278 -/
@[match_pattern] abbrev Instruction.V128Load8Lane (a0 : Memarg) (a1 : LaneIdx) : Instr := .memLane .V128Load8Lane a0 a1
/-- src/core/instruction.rs:279 -/
@[match_pattern] abbrev Instruction.V128Load16Lane (a0 : Memarg) (a1 : LaneIdx) : Instr := .memLane .V128Load16Lane a0 a1
/-- src/core/instruction.rs:280 -/
@[match_pattern] abbrev Instruction.V128Load32Lane (a0 : Memarg) (a1 : LaneIdx) : Instr := .memLane .V128Load32Lane a0 a1
/-- src/core/instruction.rs:281 -/
@[match_pattern] abbrev Instruction.V128Load64Lane (a0 : Memarg) (a1 : LaneIdx) : Instr := .memLane .V128Load64Lane a0 a1
/-- src/core/instruction.rs:282 -/
@[match_pattern] abbrev Instruction.V128Store8Lane (a0 : Memarg) (a1 : LaneIdx) : Instr := .memLane .V128Store8Lane a0 a1
/-- src/core/instruction.rs:283 -/
@[match_pattern] abbrev Instruction.V128Store16Lane (a0 : Memarg) (a1 : LaneIdx) : Instr := .memLane .V128Store16Lane a0 a1
/-- src/core/instruction.rs:284 -/
@[match_pattern] abbrev Instruction.V128Store32Lane (a0 : Memarg) (a1 : LaneIdx) : Instr := .memLane .V128Store32Lane a0 a1
/-- src/core/instruction.rs:285 -/
@[match_pattern] abbrev Instruction.V128Store64Lane (a0 : Memarg) (a1 : LaneIdx) : Instr := .memLane .V128Store64Lane a0 a1
/-- src/core/instruction.rs:286 -/
@[match_pattern] abbrev Instruction.V128Const (a0 : Bytes16) : Instr := .V128Const a0
/-- src/core/instruction.rs:287 -/
@[match_pattern] abbrev Instruction.I8x16Shuffle (a0 : Bytes16) : Instr := .I8x16Shuffle a0
/-- src/core/instruction.rs:288 -/
@[match_pattern] abbrev Instruction.I8x16ExtractLaneS (a0 : LaneIdx) : Instr := .lane .I8x16ExtractLaneS a0
/-- src/core/instruction.rs:289 -/
@[match_pattern] abbrev Instruction.I8x16ExtractLaneU (a0 : LaneIdx) : Instr := .lane .I8x16ExtractLaneU a0
/-- src/core/instruction.rs:290 -/
@[match_pattern] abbrev Instruction.I8x16ReplaceLane (a0 : LaneIdx) : Instr := .lane .I8x16ReplaceLane a0
/-- src/core/instruction.rs:291 -/
@[match_pattern] abbrev Instruction.I16x8ExtractLaneS (a0 : LaneIdx) : Instr := .lane .I16x8ExtractLaneS a0
/-- src/core/instruction.rs:292 -/
@[match_pattern] abbrev Instruction.I16x8ExtractLaneU (a0 : LaneIdx) : Instr := .lane .I16x8ExtractLaneU a0
/-- src/core/instruction.rs:293 -/
@[match_pattern] abbrev Instruction.I16x8ReplaceLane (a0 : LaneIdx) : Instr := .lane .I16x8ReplaceLane a0
/-- src/core/instruction.rs:294 -/
@[match_pattern] abbrev Instruction.I32x4ExtractLane (a0 : LaneIdx) : Instr := .lane .I32x4ExtractLane a0
/-- src/core/instruction.rs:295 -/
@[match_pattern] abbrev Instruction.I32x4ReplaceLane (a0 : LaneIdx) : Instr := .lane .I32x4ReplaceLane a0
/-- src/core/instruction.rs:296 -/
@[match_pattern] abbrev Instruction.I64x2ExtractLane (a0 : LaneIdx) : Instr := .lane .I64x2ExtractLane a0
/-- src/core/instruction.rs:297 -/
@[match_pattern] abbrev Instruction.I64x2ReplaceLane (a0 : LaneIdx) : Instr := .lane .I64x2ReplaceLane a0
/-- src/core/instruction.rs:298 -/
@[match_pattern] abbrev Instruction.F32x4ExtractLane (a0 : LaneIdx) : Instr := .lane .F32x4ExtractLane a0
/-- src/core/instruction.rs:299 -/
@[match_pattern] abbrev Instruction.F32x4ReplaceLane (a0 : LaneIdx) : Instr := .lane .F32x4ReplaceLane a0
/-- src/core/instruction.rs:300 -/
@[match_pattern] abbrev Instruction.F64x2ExtractLane (a0 : LaneIdx) : Instr := .lane .F64x2ExtractLane a0
/-- src/core/instruction.rs:301 -/
@[match_pattern] abbrev Instruction.F64x2ReplaceLane (a0 : LaneIdx) : Instr := .lane .F64x2ReplaceLane a0
/-- src/core/instruction.rs:302 -/
@[match_pattern] abbrev Instruction.I8x16Swizzle : Instr := .plain .I8x16Swizzle
/-- src/core/instruction.rs:303 -/
@[match_pattern] abbrev Instruction.I8x16RelaxedSwizzle : Instr := .plain .I8x16RelaxedSwizzle
/-- src/core/instruction.rs:304 -/
@[match_pattern] abbrev Instruction.I8x16Splat : Instr := .plain .I8x16Splat
/-- src/core/instruction.rs:305 -/
@[match_pattern] abbrev Instruction.I16x8Splat : Instr := .plain .I16x8Splat
/-- src/core/instruction.rs:306 -/
@[match_pattern] abbrev Instruction.I32x4Splat : Instr := .plain .I32x4Splat
/-- src/core/instruction.rs:307 -/
@[match_pattern] abbrev Instruction.I64x2Splat : Instr := .plain .I64x2Splat
/-- src/core/instruction.rs:308 -/
@[match_pattern] abbrev Instruction.F32x4Splat : Instr := .plain .F32x4Splat
/-- src/core/instruction.rs:309 -/
@[match_pattern] abbrev Instruction.F64x2Splat : Instr := .plain .F64x2Splat
/-- src/core/instruction.rs:310 -/
@[match_pattern] abbrev Instruction.I8x16Eq : Instr := .plain .I8x16Eq
/-- src/core/instruction.rs:311 -/
@[match_pattern] abbrev Instruction.I8x16Ne : Instr := .plain .I8x16Ne
/-- src/core/instruction.rs:312 -/
@[match_pattern] abbrev Instruction.I8x16LtS : Instr := .plain .I8x16LtS
/-- src/core/instruction.rs:313 -/
@[match_pattern] abbrev Instruction.I8x16LtU : Instr := .plain .I8x16LtU
/-- src/core/instruction.rs:314 -/
@[match_pattern] abbrev Instruction.I8x16GtS : Instr := .plain .I8x16GtS
/-- src/core/instruction.rs:315 -/
@[match_pattern] abbrev Instruction.I8x16GtU : Instr := .plain .I8x16GtU
/-- src/core/instruction.rs:316 -/
@[match_pattern] abbrev Instruction.I8x16LeS : Instr := .plain .I8x16LeS
/-- src/core/instruction.rs:317 -/
@[match_pattern] abbrev Instruction.I8x16LeU : Instr := .plain .I8x16LeU
/-- src/core/instruction.rs:318 -/
@[match_pattern] abbrev Instruction.I8x16GeS : Instr := .plain .I8x16GeS
/-- src/core/instruction.rs:319 -/
@[match_pattern] abbrev Instruction.I8x16GeU : Instr := .plain .I8x16GeU
/-- src/core/instruction.rs:320 -/
@[match_pattern] abbrev Instruction.I16x8Eq : Instr := .plain .I16x8Eq
/-- src/core/instruction.rs:321 -/
@[match_pattern] abbrev Instruction.I16x8Ne : Instr := .plain .I16x8Ne
/-- src/core/instruction.rs:322 -/
@[match_pattern] abbrev Instruction.I16x8LtS : Instr := .plain .I16x8LtS
/-- src/core/instruction.rs:323 -/
@[match_pattern] abbrev Instruction.I16x8LtU : Instr := .plain .I16x8LtU
/-- src/core/instruction.rs:324 -/
@[match_pattern] abbrev Instruction.I16x8GtS : Instr := .plain .I16x8GtS
/-- src/core/instruction.rs:325 -/
@[match_pattern] abbrev Instruction.I16x8GtU : Instr := .plain .I16x8GtU
/-- src/core/instruction.rs:326 -/
@[match_pattern] abbrev Instruction.I16x8LeS : Instr := .plain .I16x8LeS
/-- src/core/instruction.rs:327 -/
@[match_pattern] abbrev Instruction.I16x8LeU : Instr := .plain .I16x8LeU
/-- src/core/instruction.rs:328 -/
@[match_pattern] abbrev Instruction.I16x8GeS : Instr := .plain .I16x8GeS
/-- src/core/instruction.rs:329 -/
@[match_pattern] abbrev Instruction.I16x8GeU : Instr := .plain .I16x8GeU
/-- src/core/instruction.rs:330 -/
@[match_pattern] abbrev Instruction.I32x4Eq : Instr := .plain .I32x4Eq
/-- src/core/instruction.rs:331 -/
@[match_pattern] abbrev Instruction.I32x4Ne : Instr := .plain .I32x4Ne
/-- src/core/instruction.rs:332 -/
@[match_pattern] abbrev Instruction.I32x4LtS : Instr := .plain .I32x4LtS
/-- src/core/instruction.rs:333 -/
@[match_pattern] abbrev Instruction.I32x4LtU : Instr := .plain .I32x4LtU
/-- src/core/instruction.rs:334 -/
@[match_pattern] abbrev Instruction.I32x4GtS : Instr := .plain .I32x4GtS
/-- src/core/instruction.rs:335 -/
@[match_pattern] abbrev Instruction.I32x4GtU : Instr := .plain .I32x4GtU
/-- src/core/instruction.rs:336 -/
@[match_pattern] abbrev Instruction.I32x4LeS : Instr := .plain .I32x4LeS
/-- src/core/instruction.rs:337 -/
@[match_pattern] abbrev Instruction.I32x4LeU : Instr := .plain .I32x4LeU
/-- src/core/instruction.rs:338 -/
@[match_pattern] abbrev Instruction.I32x4GeS : Instr := .plain .I32x4GeS
/-- src/core/instruction.rs:339 -/
@[match_pattern] abbrev Instruction.I32x4GeU : Instr := .plain .I32x4GeU
/-- src/core/instruction.rs:340 -/
@[match_pattern] abbrev Instruction.I64x2Eq : Instr := .plain .I64x2Eq
/-- src/core/instruction.rs:341 -/
@[match_pattern] abbrev Instruction.I64x2Ne : Instr := .plain .I64x2Ne
/-- src/core/instruction.rs:342 -/
@[match_pattern] abbrev Instruction.I64x2LtS : Instr := .plain .I64x2LtS
/-- src/core/instruction.rs:343 -/
@[match_pattern] abbrev Instruction.I64x2GtS : Instr := .plain .I64x2GtS
/-- src/core/instruction.rs:344 -/
@[match_pattern] abbrev Instruction.I64x2LeS : Instr := .plain .I64x2LeS
/-- src/core/instruction.rs:345 -/
@[match_pattern] abbrev Instruction.I64x2GeS : Instr := .plain .I64x2GeS
/-- src/core/instruction.rs:346 -/
@[match_pattern] abbrev Instruction.F32x4Eq : Instr := .plain .F32x4Eq
/-- src/core/instruction.rs:347 -/
@[match_pattern] abbrev Instruction.F32x4Ne : Instr := .plain .F32x4Ne
/-- src/core/instruction.rs:348 -/
@[match_pattern] abbrev Instruction.F32x4Lt : Instr := .plain .F32x4Lt
/-- src/core/instruction.rs:349 -/
@[match_pattern] abbrev Instruction.F32x4Gt : Instr := .plain .F32x4Gt
/-- src/core/instruction.rs:350 -/
@[match_pattern] abbrev Instruction.F32x4Le : Instr := .plain .F32x4Le
/-- src/core/instruction.rs:351 -/
@[match_pattern] abbrev Instruction.F32x4Ge : Instr := .plain .F32x4Ge
/-- src/core/instruction.rs:352 -/
@[match_pattern] abbrev Instruction.F64x2Eq : Instr := .plain .F64x2Eq
/-- src/core/instruction.rs:353 -/
@[match_pattern] abbrev Instruction.F64x2Ne : Instr := .plain .F64x2Ne
/-- src/core/instruction.rs:354 -/
@[match_pattern] abbrev Instruction.F64x2Lt : Instr := .plain .F64x2Lt
/-- src/core/instruction.rs:355 -/
@[match_pattern] abbrev Instruction.F64x2Gt : Instr := .plain .F64x2Gt
/-- src/core/instruction.rs:356 -/
@[match_pattern] abbrev Instruction.F64x2Le : Instr := .plain .F64x2Le
/-- src/core/instruction.rs:357 -/
@[match_pattern] abbrev Instruction.F64x2Ge : Instr := .plain .F64x2Ge
/-- src/core/instruction.rs:358 -/
@[match_pattern] abbrev Instruction.V128Not : Instr := .plain .V128Not
/-- src/core/instruction.rs:359 -/
@[match_pattern] abbrev Instruction.V128And : Instr := .plain .V128And
/-- src/core/instruction.rs:360 -/
@[match_pattern] abbrev Instruction.V128AndNot : Instr := .plain .V128AndNot
/-- src/core/instruction.rs:361 -/
@[match_pattern] abbrev Instruction.V128Or : Instr := .plain .V128Or
/-- src/core/instruction.rs:362 -/
@[match_pattern] abbrev Instruction.V128Xor : Instr := .plain .V128Xor
/-- src/core/instruction.rs:363 -/
@[match_pattern] abbrev Instruction.V128Bitselect : Instr := .plain .V128Bitselect
/-- src/core/instruction.rs:364 -/
@[match_pattern] abbrev Instruction.I8x16RelaxedLaneSelect : Instr := .plain .I8x16RelaxedLaneSelect
/-- src/core/instruction.rs:365 -/
@[match_pattern] abbrev Instruction.I16x8RelaxedLaneSelect : Instr := .plain .I16x8RelaxedLaneSelect
/-- src/core/instruction.rs:366 -/
@[match_pattern] abbrev Instruction.I32x4RelaxedLaneSelect : Instr := .plain .I32x4RelaxedLaneSelect
/-- src/core/instruction.rs:367 -/
@[match_pattern] abbrev Instruction.I64x2RelaxedLaneSelect : Instr := .plain .I64x2RelaxedLaneSelect
/-- src/core/instruction.rs:368 -/
@[match_pattern] abbrev Instruction.V128AnyTrue : Instr := .plain .V128AnyTrue
/-- src/core/instruction.rs:369 -/
@[match_pattern] abbrev Instruction.I8x16Abs : Instr := .plain .I8x16Abs
/-- src/core/instruction.rs:370 -/
@[match_pattern] abbrev Instruction.I8x16Neg : Instr := .plain .I8x16Neg
/-- src/core/instruction.rs:371 -/
@[match_pattern] abbrev Instruction.I8x16Popcnt : Instr := .plain .I8x16Popcnt
/-- src/core/instruction.rs:372 -/
@[match_pattern] abbrev Instruction.I8x16AllTrue : Instr := .plain .I8x16AllTrue
/-- src/core/instruction.rs:373 -/
@[match_pattern] abbrev Instruction.I8x16Bitmask : Instr := .plain .I8x16Bitmask
/-- src/core/instruction.rs:374 -/
@[match_pattern] abbrev Instruction.I8x16NarrowI16x8S : Instr := .plain .I8x16NarrowI16x8S
/-- src/core/instruction.rs:375 -/
@[match_pattern] abbrev Instruction.I8x16NarrowI16x8U : Instr := .plain .I8x16NarrowI16x8U
/-- src/core/instruction.rs:376 -/
@[match_pattern] abbrev Instruction.I8x16Shl : Instr := .plain .I8x16Shl
/-- src/core/instruction.rs:377 -/
@[match_pattern] abbrev Instruction.I8x16ShrS : Instr := .plain .I8x16ShrS
/-- src/core/instruction.rs:378 -/
@[match_pattern] abbrev Instruction.I8x16ShrU : Instr := .plain .I8x16ShrU
/-- src/core/instruction.rs:379 -/
@[match_pattern] abbrev Instruction.I8x16Add : Instr := .plain .I8x16Add
/-- src/core/instruction.rs:380 -/
@[match_pattern] abbrev Instruction.I8x16AddSatS : Instr := .plain .I8x16AddSatS
/-- src/core/instruction.rs:381 -/
@[match_pattern] abbrev Instruction.I8x16AddSatU : Instr := .plain .I8x16AddSatU
/-- src/core/instruction.rs:382 -/
@[match_pattern] abbrev Instruction.I8x16Sub : Instr := .plain .I8x16Sub
/-- src/core/instruction.rs:383 -/
@[match_pattern] abbrev Instruction.I8x16SubSatS : Instr := .plain .I8x16SubSatS
/-- src/core/instruction.rs:384 -/
@[match_pattern] abbrev Instruction.I8x16SubSatU : Instr := .plain .I8x16SubSatU
/-- src/core/instruction.rs:385 -/
@[match_pattern] abbrev Instruction.I8x16MinS : Instr := .plain .I8x16MinS
/-- src/core/instruction.rs:386 -/
@[match_pattern] abbrev Instruction.I8x16MinU : Instr := .plain .I8x16MinU
/-- src/core/instruction.rs:387 -/
@[match_pattern] abbrev Instruction.I8x16MaxS : Instr := .plain .I8x16MaxS
/-- src/core/instruction.rs:388 -/
@[match_pattern] abbrev Instruction.I8x16MaxU : Instr := .plain .I8x16MaxU
/-- src/core/instruction.rs:389 -/
@[match_pattern] abbrev Instruction.I8x16AvgrU : Instr := .plain .I8x16AvgrU
/-- src/core/instruction.rs:390 -/
@[match_pattern] abbrev Instruction.I16x8ExtaddPairwiseI8x16S : Instr := .plain .I16x8ExtaddPairwiseI8x16S
/-- src/core/instruction.rs:391 -/
@[match_pattern] abbrev Instruction.I16x8ExtaddPairwiseI8x16U : Instr := .plain .I16x8ExtaddPairwiseI8x16U
/-- src/core/instruction.rs:392 -/
@[match_pattern] abbrev Instruction.I16x8Abs : Instr := .plain .I16x8Abs
/-- src/core/instruction.rs:393 -/
@[match_pattern] abbrev Instruction.I16x8Neg : Instr := .plain .I16x8Neg
/-- src/core/instruction.rs:394 -/
@[match_pattern] abbrev Instruction.I16x8Q15MulrSatS : Instr := .plain .I16x8Q15MulrSatS
/-- src/core/instruction.rs:395 -/
@[match_pattern] abbrev Instruction.I16x8AllTrue : Instr := .plain .I16x8AllTrue
/-- src/core/instruction.rs:396 -/
@[match_pattern] abbrev Instruction.I16x8Bitmask : Instr := .plain .I16x8Bitmask
/-- src/core/instruction.rs:397 -/
@[match_pattern] abbrev Instruction.I16x8NarrowI32x4S : Instr := .plain .I16x8NarrowI32x4S
/-- src/core/instruction.rs:398 -/
@[match_pattern] abbrev Instruction.I16x8NarrowI32x4U : Instr := .plain .I16x8NarrowI32x4U
/-- src/core/instruction.rs:399 -/
@[match_pattern] abbrev Instruction.I16x8ExtendLowI8x16S : Instr := .plain .I16x8ExtendLowI8x16S
/-- src/core/instruction.rs:400 -/
@[match_pattern] abbrev Instruction.I16x8ExtendHighI8x16S : Instr := .plain .I16x8ExtendHighI8x16S
/-- src/core/instruction.rs:401 -/
@[match_pattern] abbrev Instruction.I16x8ExtendLowI8x16U : Instr := .plain .I16x8ExtendLowI8x16U
/-- src/core/instruction.rs:402 -/
@[match_pattern] abbrev Instruction.I16x8ExtendHighI8x16U : Instr := .plain .I16x8ExtendHighI8x16U
/-- src/core/instruction.rs:403 -/
@[match_pattern] abbrev Instruction.I16x8Shl : Instr := .plain .I16x8Shl
/-- src/core/instruction.rs:404 -/
@[match_pattern] abbrev Instruction.I16x8ShrS : Instr := .plain .I16x8ShrS
/-- src/core/instruction.rs:405 -/
@[match_pattern] abbrev Instruction.I16x8ShrU : Instr := .plain .I16x8ShrU
/-- src/core/instruction.rs:406 -/
@[match_pattern] abbrev Instruction.I16x8Add : Instr := .plain .I16x8Add
/-- src/core/instruction.rs:407 -/
@[match_pattern] abbrev Instruction.I16x8AddSatS : Instr := .plain .I16x8AddSatS
/-- src/core/instruction.rs:408 -/
@[match_pattern] abbrev Instruction.I16x8AddSatU : Instr := .plain .I16x8AddSatU
/-- src/core/instruction.rs:409 -/
@[match_pattern] abbrev Instruction.I16x8Sub : Instr := .plain .I16x8Sub
/-- src/core/instruction.rs:410 -/
@[match_pattern] abbrev Instruction.I16x8SubSatS : Instr := .plain .I16x8SubSatS
/-- src/core/instruction.rs:411 -/
@[match_pattern] abbrev Instruction.I16x8SubSatU : Instr := .plain .I16x8SubSatU
/-- src/core/instruction.rs:412 -/
@[match_pattern] abbrev Instruction.I16x8Mul : Instr := .plain .I16x8Mul
/-- src/core/instruction.rs:413 -/
@[match_pattern] abbrev Instruction.I16x8MinS : Instr := .plain .I16x8MinS
/-- src/core/instruction.rs:414 -/
@[match_pattern] abbrev Instruction.I16x8MinU : Instr := .plain .I16x8MinU
/-- src/core/instruction.rs:415 -/
@[match_pattern] abbrev Instruction.I16x8MaxS : Instr := .plain .I16x8MaxS
/-- src/core/instruction.rs:416 -/
@[match_pattern] abbrev Instruction.I16x8MaxU : Instr := .plain .I16x8MaxU
/-- src/core/instruction.rs:417 -/
@[match_pattern] abbrev Instruction.I16x8AvgrU : Instr := .plain .I16x8AvgrU
/-- src/core/instruction.rs:418 -/
@[match_pattern] abbrev Instruction.I16x8ExtmulLowI8x16S : Instr := .plain .I16x8ExtmulLowI8x16S
/-- src/core/instruction.rs:419 -/
@[match_pattern] abbrev Instruction.I16x8ExtmulHighI8x16S : Instr := .plain .I16x8ExtmulHighI8x16S
/-- src/core/instruction.rs:420 -/
@[match_pattern] abbrev Instruction.I16x8ExtmulLowI8x16U : Instr := .plain .I16x8ExtmulLowI8x16U
/-- src/core/instruction.rs:421 -/
@[match_pattern] abbrev Instruction.I16x8ExtmulHighI8x16U : Instr := .plain .I16x8ExtmulHighI8x16U
/-- src/core/instruction.rs:422 -/
@[match_pattern] abbrev Instruction.I16x8RelaxedQ15MulrS : Instr := .plain .I16x8RelaxedQ15MulrS
/-- src/core/instruction.rs:423 -/
@[match_pattern] abbrev Instruction.I16x8RelaxedDotSI8x16 : Instr := .plain .I16x8RelaxedDotSI8x16
/-- src/core/instruction.rs:424 -/
@[match_pattern] abbrev Instruction.I32x4RelaxedDotAddSI16x8 : Instr := .plain .I32x4RelaxedDotAddSI16x8
/-- src/core/instruction.rs:425 -/
@[match_pattern] abbrev Instruction.I32x4ExtaddPairwiseI16x8S : Instr := .plain .I32x4ExtaddPairwiseI16x8S
/-- src/core/instruction.rs:426 -/
@[match_pattern] abbrev Instruction.I32x4ExtaddPairwiseI16x8U : Instr := .plain .I32x4ExtaddPairwiseI16x8U
/-- src/core/instruction.rs:427 -/
@[match_pattern] abbrev Instruction.I32x4Abs : Instr := .plain .I32x4Abs
/-- src/core/instruction.rs:428 -/
@[match_pattern] abbrev Instruction.I32x4Neg : Instr := .plain .I32x4Neg
/-- src/core/instruction.rs:429 -/
@[match_pattern] abbrev Instruction.I32x4AllTrue : Instr := .plain .I32x4AllTrue
/-- src/core/instruction.rs:430 -/
@[match_pattern] abbrev Instruction.I32x4Bitmask : Instr := .plain .I32x4Bitmask
/-- src/core/instruction.rs:431 -/
@[match_pattern] abbrev Instruction.I32x4ExtendLowI16x8S : Instr := .plain .I32x4ExtendLowI16x8S
/-- src/core/instruction.rs:432 -/
@[match_pattern] abbrev Instruction.I32x4ExtendHighI16x8S : Instr := .plain .I32x4ExtendHighI16x8S
/-- src/core/instruction.rs:433 -/
@[match_pattern] abbrev Instruction.I32x4ExtendLowI16x8U : Instr := .plain .I32x4ExtendLowI16x8U
/-- src/core/instruction.rs:434 -/
@[match_pattern] abbrev Instruction.I32x4ExtendHighI16x8U : Instr := .plain .I32x4ExtendHighI16x8U
/-- src/core/instruction.rs:435 -/
@[match_pattern] abbrev Instruction.I32x4Shl : Instr := .plain .I32x4Shl
/-- src/core/instruction.rs:436 -/
@[match_pattern] abbrev Instruction.I32x4ShrS : Instr := .plain .I32x4ShrS
/-- src/core/instruction.rs:437 -/
@[match_pattern] abbrev Instruction.I32x4ShrU : Instr := .plain .I32x4ShrU
/-- src/core/instruction.rs:438 -/
@[match_pattern] abbrev Instruction.I32x4Add : Instr := .plain .I32x4Add
/-- src/core/instruction.rs:439 -/
@[match_pattern] abbrev Instruction.I32x4Sub : Instr := .plain .I32x4Sub
/-- src/core/instruction.rs:440 -/
@[match_pattern] abbrev Instruction.I32x4Mul : Instr := .plain .I32x4Mul
/-- src/core/instruction.rs:441 -/
@[match_pattern] abbrev Instruction.I32x4MinS : Instr := .plain .I32x4MinS
/-- src/core/instruction.rs:442 -/
@[match_pattern] abbrev Instruction.I32x4MinU : Instr := .plain .I32x4MinU
/-- src/core/instruction.rs:443 -/
@[match_pattern] abbrev Instruction.I32x4MaxS : Instr := .plain .I32x4MaxS
/-- src/core/instruction.rs:444 -/
@[match_pattern] abbrev Instruction.I32x4MaxU : Instr := .plain .I32x4MaxU
/-- src/core/instruction.rs:445 -/
@[match_pattern] abbrev Instruction.I32x4DotI16x8S : Instr := .plain .I32x4DotI16x8S
/-- src/core/instruction.rs:446 -/
@[match_pattern] abbrev Instruction.I32x4ExtmulLowI16x8S : Instr := .plain .I32x4ExtmulLowI16x8S
/-- src/core/instruction.rs:447 -/
@[match_pattern] abbrev Instruction.I32x4ExtmulHighI16x8S : Instr := .plain .I32x4ExtmulHighI16x8S
/-- src/core/instruction.rs:448 -/
@[match_pattern] abbrev Instruction.I32x4ExtmulLowI16x8U : Instr := .plain .I32x4ExtmulLowI16x8U
/-- src/core/instruction.rs:449 -/
@[match_pattern] abbrev Instruction.I32x4ExtmulHighI16x8U : Instr := .plain .I32x4ExtmulHighI16x8U
/-- src/core/instruction.rs:450 -/
@[match_pattern] abbrev Instruction.I64x2Abs : Instr := .plain .I64x2Abs
/-- src/core/instruction.rs:451 -/
@[match_pattern] abbrev Instruction.I64x2Neg : Instr := .plain .I64x2Neg
/-- src/core/instruction.rs:452 -/
@[match_pattern] abbrev Instruction.I64x2AllTrue : Instr := .plain .I64x2AllTrue
/-- src/core/instruction.rs:453 -/
@[match_pattern] abbrev Instruction.I64x2Bitmask : Instr := .plain .I64x2Bitmask
/-- src/core/instruction.rs:454 -/
@[match_pattern] abbrev Instruction.I64x2ExtendLowI32x4S : Instr := .plain .I64x2ExtendLowI32x4S
/-- src/core/instruction.rs:455 -/
@[match_pattern] abbrev Instruction.I64x2ExtendHighI32x4S : Instr := .plain .I64x2ExtendHighI32x4S
/-- src/core/instruction.rs:456 -/
@[match_pattern] abbrev Instruction.I64x2ExtendLowI32x4U : Instr := .plain .I64x2ExtendLowI32x4U
/-- src/core/instruction.rs:457 -/
@[match_pattern] abbrev Instruction.I64x2ExtendHighI32x4U : Instr := .plain .I64x2ExtendHighI32x4U
/-- src/core/instruction.rs:458 -/
@[match_pattern] abbrev Instruction.I64x2Shl : Instr := .plain .I64x2Shl
/-- src/core/instruction.rs:459 -/
@[match_pattern] abbrev Instruction.I64x2ShrS : Instr := .plain .I64x2ShrS
/-- src/core/instruction.rs:460 -/
@[match_pattern] abbrev Instruction.I64x2ShrU : Instr := .plain .I64x2ShrU
/-- src/core/instruction.rs:461 -/
@[match_pattern] abbrev Instruction.I64x2Add : Instr := .plain .I64x2Add
/-- src/core/instruction.rs:462 -/
@[match_pattern] abbrev Instruction.I64x2Sub : Instr := .plain .I64x2Sub
/-- src/core/instruction.rs:463 -/
@[match_pattern] abbrev Instruction.I64x2Mul : Instr := .plain .I64x2Mul
/-- src/core/instruction.rs:464 -/
@[match_pattern] abbrev Instruction.I64x2ExtmulLowI32x4S : Instr := .plain .I64x2ExtmulLowI32x4S
/-- src/core/instruction.rs:465 -/
@[match_pattern] abbrev Instruction.I64x2ExtmulHighI32x4S : Instr := .plain .I64x2ExtmulHighI32x4S
/-- src/core/instruction.rs:466 -/
@[match_pattern] abbrev Instruction.I64x2ExtmulLowI32x4U : Instr := .plain .I64x2ExtmulLowI32x4U
/-- src/core/instruction.rs:467 -/
@[match_pattern] abbrev Instruction.I64x2ExtmulHighI32x4U : Instr := .plain .I64x2ExtmulHighI32x4U
/-- src/core/instruction.rs:468 -/
@[match_pattern] abbrev Instruction.F32x4Ceil : Instr := .plain .F32x4Ceil
/-- src/core/instruction.rs:469 -/
@[match_pattern] abbrev Instruction.F32x4Floor : Instr := .plain .F32x4Floor
/-- src/core/instruction.rs:470 -/
@[match_pattern] abbrev Instruction.F32x4Trunc : Instr := .plain .F32x4Trunc
/-- src/core/instruction.rs:471 -/
@[match_pattern] abbrev Instruction.F32x4Nearest : Instr := .plain .F32x4Nearest
/-- src/core/instruction.rs:472 -/
@[match_pattern] abbrev Instruction.F32x4Abs : Instr := .plain .F32x4Abs
/-- src/core/instruction.rs:473 -/
@[match_pattern] abbrev Instruction.F32x4Neg : Instr := .plain .F32x4Neg
/-- src/core/instruction.rs:474 -/
@[match_pattern] abbrev Instruction.F32x4Sqrt : Instr := .plain .F32x4Sqrt
/-- src/core/instruction.rs:475 -/
@[match_pattern] abbrev Instruction.F32x4Add : Instr := .plain .F32x4Add
/-- src/core/instruction.rs:476 -/
@[match_pattern] abbrev Instruction.F32x4Sub : Instr := .plain .F32x4Sub
/-- src/core/instruction.rs:477 -/
@[match_pattern] abbrev Instruction.F32x4Mul : Instr := .plain .F32x4Mul
/-- src/core/instruction.rs:478 -/
@[match_pattern] abbrev Instruction.F32x4Div : Instr := .plain .F32x4Div
/-- src/core/instruction.rs:479 -/
@[match_pattern] abbrev Instruction.F32x4Min : Instr := .plain .F32x4Min
/-- src/core/instruction.rs:480 -/
@[match_pattern] abbrev Instruction.F32x4Max : Instr := .plain .F32x4Max
/-- src/core/instruction.rs:481 -/
@[match_pattern] abbrev Instruction.F32x4PMin : Instr := .plain .F32x4PMin
/-- src/core/instruction.rs:482 -/
@[match_pattern] abbrev Instruction.F32x4PMax : Instr := .plain .F32x4PMax
/-- src/core/instruction.rs:483 -/
@[match_pattern] abbrev Instruction.F32x4RelaxedMin : Instr := .plain .F32x4RelaxedMin
/-- src/core/instruction.rs:484 -/
@[match_pattern] abbrev Instruction.F32x4RelaxedMax : Instr := .plain .F32x4RelaxedMax
/-- src/core/instruction.rs:485 -/
@[match_pattern] abbrev Instruction.F32x4RelaxedMAdd : Instr := .plain .F32x4RelaxedMAdd
/-- src/core/instruction.rs:486 -/
@[match_pattern] abbrev Instruction.F32x4RelaxedNMAdd : Instr := .plain .F32x4RelaxedNMAdd
/-- src/core/instruction.rs:487 -/
@[match_pattern] abbrev Instruction.F64x2Ceil : Instr := .plain .F64x2Ceil
/-- src/core/instruction.rs:488 -/
@[match_pattern] abbrev Instruction.F64x2Floor : Instr := .plain .F64x2Floor
/-- src/core/instruction.rs:489 -/
@[match_pattern] abbrev Instruction.F64x2Trunc : Instr := .plain .F64x2Trunc
/-- src/core/instruction.rs:490 -/
@[match_pattern] abbrev Instruction.F64x2Nearest : Instr := .plain .F64x2Nearest
/-- src/core/instruction.rs:491 -/
@[match_pattern] abbrev Instruction.F64x2Abs : Instr := .plain .F64x2Abs
/-- src/core/instruction.rs:492 -/
@[match_pattern] abbrev Instruction.F64x2Neg : Instr := .plain .F64x2Neg
/-- src/core/instruction.rs:493 -/
@[match_pattern] abbrev Instruction.F64x2Sqrt : Instr := .plain .F64x2Sqrt
/-- src/core/instruction.rs:494 -/
@[match_pattern] abbrev Instruction.F64x2Add : Instr := .plain .F64x2Add
/-- src/core/instruction.rs:495 -/
@[match_pattern] abbrev Instruction.F64x2Sub : Instr := .plain .F64x2Sub
/-- src/core/instruction.rs:496 -/
@[match_pattern] abbrev Instruction.F64x2Mul : Instr := .plain .F64x2Mul
/-- src/core/instruction.rs:497 -/
@[match_pattern] abbrev Instruction.F64x2Div : Instr := .plain .F64x2Div
/-- src/core/instruction.rs:498 -/
@[match_pattern] abbrev Instruction.F64x2Min : Instr := .plain .F64x2Min
/-- src/core/instruction.rs:499 -/
@[match_pattern] abbrev Instruction.F64x2Max : Instr := .plain .F64x2Max
/-- src/core/instruction.rs:500 -/
@[match_pattern] abbrev Instruction.F64x2PMin : Instr := .plain .F64x2PMin
/-- src/core/instruction.rs:501 -/
@[match_pattern] abbrev Instruction.F64x2PMax : Instr := .plain .F64x2PMax
/-- src/core/instruction.rs:502 -/
@[match_pattern] abbrev Instruction.F64x2RelaxedMin : Instr := .plain .F64x2RelaxedMin
/-- src/core/instruction.rs:503 -/
@[match_pattern] abbrev Instruction.F64x2RelaxedMax : Instr := .plain .F64x2RelaxedMax
/-- src/core/instruction.rs:504 -/
@[match_pattern] abbrev Instruction.F64x2RelaxedMAdd : Instr := .plain .F64x2RelaxedMAdd
/-- src/core/instruction.rs:505 -/
@[match_pattern] abbrev Instruction.F64x2RelaxedNMAdd : Instr := .plain .F64x2RelaxedNMAdd
/-- src/core/instruction.rs:506 -/
@[match_pattern] abbrev Instruction.I32x4TruncSatF32x4S : Instr := .plain .I32x4TruncSatF32x4S
/-- src/core/instruction.rs:507 -/
@[match_pattern] abbrev Instruction.I32x4TruncSatF32x4U : Instr := .plain .I32x4TruncSatF32x4U
/-- src/core/instruction.rs:508 -/
@[match_pattern] abbrev Instruction.F32x4ConvertI32x4S : Instr := .plain .F32x4ConvertI32x4S
/-- src/core/instruction.rs:509 -/
@[match_pattern] abbrev Instruction.F32x4ConvertI32x4U : Instr := .plain .F32x4ConvertI32x4U
/-- src/core/instruction.rs:510 -/
@[match_pattern] abbrev Instruction.I32x4TruncSatF64x2SZero : Instr := .plain .I32x4TruncSatF64x2SZero
/-- src/core/instruction.rs:511 -/
@[match_pattern] abbrev Instruction.I32x4TruncSatF64x2UZero : Instr := .plain .I32x4TruncSatF64x2UZero
/-- src/core/instruction.rs:512 -/
@[match_pattern] abbrev Instruction.I32x4RelaxedTruncF32x4S : Instr := .plain .I32x4RelaxedTruncF32x4S
/-- src/core/instruction.rs:513 -/
@[match_pattern] abbrev Instruction.I32x4RelaxedTruncF32x4U : Instr := .plain .I32x4RelaxedTruncF32x4U
/-- src/core/instruction.rs:514 -/
@[match_pattern] abbrev Instruction.I32x4RelaxedTruncF64x2SZero : Instr := .plain .I32x4RelaxedTruncF64x2SZero
/-- src/core/instruction.rs:515 -/
@[match_pattern] abbrev Instruction.I32x4RelaxedTruncF64x2UZero : Instr := .plain .I32x4RelaxedTruncF64x2UZero
/-- src/core/instruction.rs:516 -/
@[match_pattern] abbrev Instruction.F64x2ConvertLowI32x4S : Instr := .plain .F64x2ConvertLowI32x4S
/-- src/core/instruction.rs:517 -/
@[match_pattern] abbrev Instruction.F64x2ConvertLowI32x4U : Instr := .plain .F64x2ConvertLowI32x4U
/-- src/core/instruction.rs:518 -/
@[match_pattern] abbrev Instruction.F32x4DemoteF64x2Zero : Instr := .plain .F32x4DemoteF64x2Zero
/-- src/core/instruction.rs:519 -/
@[match_pattern] abbrev Instruction.F64x2PromoteLowF32x4 : Instr := .plain .F64x2PromoteLowF32x4

/-- src/core/module.rs:172: the order of the variants, which `derive(PartialOrd)` compares. -/
def SectionKind.discr : SectionKind → Nat
  | .Custom => 0
  | .Type => 1
  | .Import => 2
  | .Function => 3
  | .Table => 4
  | .Memory => 5
  | .Tag => 6
  | .Global => 7
  | .Export => 8
  | .Start => 9
  | .Element => 10
  | .DataCount => 11
  | .Code => 12
  | .Data => 13

/-- `derive(PartialOrd)` at src/core/module.rs:172 -/
instance : LT SectionKind := ⟨fun a b => SectionKind.discr a < SectionKind.discr b⟩
instance (a b : SectionKind) : Decidable (a < b) :=
  inferInstanceAs (Decidable (SectionKind.discr a < SectionKind.discr b))

/-! ### `From` conversions -/

/-- src/decode/integer.rs:17 -/
instance : From IoError DecodeU32Error := ⟨DecodeU32Error.Io⟩
/-- src/decode/integer.rs:61 -/
instance : From IoError DecodeU64Error := ⟨DecodeU64Error.Io⟩
/-- src/decode/integer.rs:105 -/
instance : From IoError DecodeI32Error := ⟨DecodeI32Error.Io⟩
/-- src/decode/integer.rs:148 -/
instance : From IoError DecodeI64Error := ⟨DecodeI64Error.Io⟩
/-- src/decode/integer.rs:199 -/
instance : From IoError DecodeS33Error := ⟨DecodeS33Error.Io⟩
/-- src/decode/indices.rs:14 -/
instance : From DecodeU32Error DecodeTypeIdxError := ⟨DecodeTypeIdxError.mk⟩
/-- src/decode/indices.rs:14 -/
instance : From DecodeU32Error DecodeFuncIdxError := ⟨DecodeFuncIdxError.mk⟩
/-- src/decode/indices.rs:14 -/
instance : From DecodeU32Error DecodeTableIdxError := ⟨DecodeTableIdxError.mk⟩
/-- src/decode/indices.rs:14 -/
instance : From DecodeU32Error DecodeMemIdxError := ⟨DecodeMemIdxError.mk⟩
/-- src/decode/indices.rs:14 -/
instance : From DecodeU32Error DecodeGlobalIdxError := ⟨DecodeGlobalIdxError.mk⟩
/-- src/decode/indices.rs:14 -/
instance : From DecodeU32Error DecodeElemIdxError := ⟨DecodeElemIdxError.mk⟩
/-- src/decode/indices.rs:14 -/
instance : From DecodeU32Error DecodeDataIdxError := ⟨DecodeDataIdxError.mk⟩
/-- src/decode/indices.rs:14 -/
instance : From DecodeU32Error DecodeLocalIdxError := ⟨DecodeLocalIdxError.mk⟩
/-- src/decode/indices.rs:14 -/
instance : From DecodeU32Error DecodeLabelIdxError := ⟨DecodeLabelIdxError.mk⟩
/-- src/decode/indices.rs:14 -/
instance : From DecodeU32Error DecodeTagIdxError := ⟨DecodeTagIdxError.mk⟩
/-- src/decode/helpers.rs:17 -/
instance : From ParseError ParseExpressionError := ⟨ParseExpressionError.ParseInstruction⟩
/-- src/decode/helpers.rs:71 -/
instance : From IoError DecodeFloat32Error := ⟨DecodeFloat32Error.ReadPayload⟩
/-- src/decode/helpers.rs:83 -/
instance : From IoError DecodeFloat64Error := ⟨DecodeFloat64Error.ReadPayload⟩
/-- src/decode/helpers.rs:95 -/
instance {E : Type} : From DecodeU32Error (DecodeListError E) := ⟨DecodeListError.DecodeLength⟩
/-- src/decode/helpers.rs:150 -/
instance : From DecodeU32Error DecodeByteVectorError := ⟨DecodeByteVectorError.DecodeLength⟩
/-- src/decode/helpers.rs:153 -/
instance : From IoError DecodeByteVectorError := ⟨DecodeByteVectorError.ReadElements⟩
/-- src/decode/helpers.rs:168 -/
instance : From DecodeByteVectorError DecodeNameError := ⟨DecodeNameError.DecodeByteVector⟩
/-- src/decode/helpers.rs:171 -/
instance : From FromUtf8Error DecodeNameError := ⟨DecodeNameError.Utf8⟩
/-- src/decode/types/heaptype.rs:13 -/
instance : From IoError DecodeHeapTypeError := ⟨DecodeHeapTypeError.ReadMarkerByte⟩
/-- src/decode/types/heaptype.rs:16 -/
instance : From DecodeS33Error DecodeHeapTypeError := ⟨DecodeHeapTypeError.DecodeTypeIndex⟩
/-- src/decode/types/heaptype.rs:68 -/
instance : From UInt8 InvalidAbsHeapTypeMarkerError := ⟨InvalidAbsHeapTypeMarkerError.mk⟩
/-- src/decode/types/heaptype.rs:85 -/
instance : From IoError DecodeAbsHeapTypeError := ⟨DecodeAbsHeapTypeError.ReadMarkerByte⟩
/-- src/decode/types/heaptype.rs:88 -/
instance : From InvalidAbsHeapTypeMarkerError DecodeAbsHeapTypeError := ⟨DecodeAbsHeapTypeError.InvalidMarkerByte⟩
/-- src/decode/types/reftype.rs:12 -/
instance : From IoError DecodeRefTypeError := ⟨DecodeRefTypeError.Io⟩
/-- src/decode/types/reftype.rs:15 -/
instance : From DecodeHeapTypeError DecodeRefTypeError := ⟨DecodeRefTypeError.DecodeHeapType⟩
/-- src/decode/types/reftype.rs:18 -/
instance : From DecodeAbsHeapTypeError DecodeRefTypeError := ⟨DecodeRefTypeError.InvalidMarkerByte⟩
/-- src/decode/types/valtype.rs:13 -/
instance : From IoError DecodeValTypeError := ⟨DecodeValTypeError.Io⟩
/-- src/decode/types/valtype.rs:16 -/
instance : From DecodeRefTypeError DecodeValTypeError := ⟨DecodeValTypeError.DecodeRefType⟩
/-- src/decode/types/resulttype.rs:11 -/
instance : From (DecodeListError DecodeValTypeError) DecodeResultTypeError := ⟨DecodeResultTypeError.DecodeList⟩
/-- src/decode/types/globaltype.rs:13 -/
instance : From DecodeValTypeError DecodeGlobalTypeError := ⟨DecodeGlobalTypeError.DecodeValueType⟩
/-- src/decode/types/globaltype.rs:19 -/
instance : From InvalidMutabilityByteError DecodeGlobalTypeError := ⟨DecodeGlobalTypeError.InvalidMutability⟩
/-- src/decode/types/globaltype.rs:50 -/
instance : From UInt8 InvalidMutabilityByteError := ⟨InvalidMutabilityByteError.mk⟩
/-- src/decode/types/comptype.rs:23 -/
instance : From (DecodeListError DecodeFieldTypeError) DecodeCompTypeError := ⟨DecodeCompTypeError.DecodeStruct⟩
/-- src/decode/types/comptype.rs:32 -/
instance : From DecodeFieldTypeError DecodeCompTypeError := ⟨DecodeCompTypeError.DecodeFieldType⟩
/-- src/decode/types/comptype.rs:70 -/
instance : From DecodeStorageTypeError DecodeFieldTypeError := ⟨DecodeFieldTypeError.DecodeStorageType⟩
/-- src/decode/types/comptype.rs:76 -/
instance : From InvalidMutabilityByteError DecodeFieldTypeError := ⟨DecodeFieldTypeError.DecodeMutability⟩
/-- src/decode/types/comptype.rs:128 -/
instance : From UInt8 InvalidPackTypeMarkerError := ⟨InvalidPackTypeMarkerError.mk⟩
/-- src/decode/types/rectype.rs:13 -/
instance : From IoError DecodeRecTypeError := ⟨DecodeRecTypeError.Io⟩
/-- src/decode/types/rectype.rs:16 -/
instance : From (DecodeListError DecodeSubTypeError) DecodeRecTypeError := ⟨DecodeRecTypeError.DecodeSubtypes⟩
/-- src/decode/types/rectype.rs:19 -/
instance : From DecodeSubTypeError DecodeRecTypeError := ⟨DecodeRecTypeError.DecodeSubtype⟩
/-- src/decode/types/rectype.rs:44 -/
instance : From IoError DecodeSubTypeError := ⟨DecodeSubTypeError.Io⟩
/-- src/decode/types/rectype.rs:47 -/
instance : From (DecodeListError DecodeTypeIdxError) DecodeSubTypeError := ⟨DecodeSubTypeError.DecodeSupertypes⟩
/-- src/decode/types/rectype.rs:50 -/
instance : From DecodeCompTypeError DecodeSubTypeError := ⟨DecodeSubTypeError.DecodeCompType⟩
/-- src/decode/types/memtype.rs:8 -/
instance : From ParseLimitsError DecodeMemoryTypeError := ⟨DecodeMemoryTypeError.mk⟩
/-- src/decode/types/tabletype.rs:12 -/
instance : From DecodeRefTypeError DecodeTableTypeError := ⟨DecodeTableTypeError.DecodeRefType⟩
/-- src/decode/types/tabletype.rs:15 -/
instance : From ParseLimitsError DecodeTableTypeError := ⟨DecodeTableTypeError.DecodeLimits⟩
/-- src/decode/types/tagtype.rs:12 -/
instance : From IoError DecodeTagTypeError := ⟨DecodeTagTypeError.ReadMarkerByte⟩
/-- src/decode/types/tagtype.rs:20 -/
instance : From DecodeTypeIdxError DecodeTagTypeError := ⟨DecodeTagTypeError.DecodeTypeIndex⟩
/-- src/decode/types/externtype.rs:19 -/
instance : From IoError DecodeExternTypeError := ⟨DecodeExternTypeError.ReadMarkerByte⟩
/-- src/decode/types/externtype.rs:27 -/
instance : From DecodeTypeIdxError DecodeExternTypeError := ⟨DecodeExternTypeError.DecodeTypeIndex⟩
/-- src/decode/types/externtype.rs:30 -/
instance : From DecodeTableTypeError DecodeExternTypeError := ⟨DecodeExternTypeError.DecodeTableType⟩
/-- src/decode/types/externtype.rs:33 -/
instance : From DecodeMemoryTypeError DecodeExternTypeError := ⟨DecodeExternTypeError.DecodeMemoryType⟩
/-- src/decode/types/externtype.rs:36 -/
instance : From DecodeGlobalTypeError DecodeExternTypeError := ⟨DecodeExternTypeError.DecodeGlobalType⟩
/-- src/decode/types/externtype.rs:39 -/
instance : From DecodeTagTypeError DecodeExternTypeError := ⟨DecodeExternTypeError.DecodeTagType⟩
/-- src/decode/instructions.rs:22 -/
instance : From IoError ParseError := ⟨ParseError.ReadOpcode⟩
/-- src/decode/instructions.rs:25 -/
instance : From ControlError ParseError := ⟨ParseError.Control⟩
/-- src/decode/instructions.rs:28 -/
instance : From ReferenceError ParseError := ⟨ParseError.Reference⟩
/-- src/decode/instructions.rs:31 -/
instance : From AggregateError ParseError := ⟨ParseError.Aggregate⟩
/-- src/decode/instructions.rs:34 -/
instance : From ParametricError ParseError := ⟨ParseError.Parametric⟩
/-- src/decode/instructions.rs:37 -/
instance : From VariableError ParseError := ⟨ParseError.Variable⟩
/-- src/decode/instructions.rs:40 -/
instance : From TableError ParseError := ⟨ParseError.Table⟩
/-- src/decode/instructions.rs:43 -/
instance : From MemoryError ParseError := ⟨ParseError.Memory⟩
/-- src/decode/instructions.rs:46 -/
instance : From NumericError ParseError := ⟨ParseError.Numeric⟩
/-- src/decode/instructions.rs:49 -/
instance : From VectorError ParseError := ⟨ParseError.Vector⟩
/-- src/decode/instructions.rs:64 -/
instance : From DecodeLabelIdxError ControlError := ⟨ControlError.LabelIdx⟩
/-- src/decode/instructions.rs:67 -/
instance : From (DecodeListError DecodeLabelIdxError) ControlError := ⟨ControlError.DecodeLabelIdxVector⟩
/-- src/decode/instructions.rs:82 -/
instance : From (DecodeListError CatchError) ControlError := ⟨ControlError.DecodeCatchListError⟩
/-- src/decode/instructions.rs:97 -/
instance : From DecodeHeapTypeError ControlError := ⟨ControlError.HeapType⟩
/-- src/decode/instructions.rs:133 -/
instance : From (DecodeListError DecodeValTypeError) ParametricError := ⟨ParametricError.DecodeList⟩
/-- src/decode/instructions.rs:1033 -/
instance : From DecodeMemIdxError MemargError := ⟨MemargError.MemIdx⟩
/-- src/decode/instructions.rs:1060 -/
instance : From IoError LaneIdxError := ⟨LaneIdxError.mk⟩
/-- src/decode/instructions.rs:1078 -/
instance : From DecodeS33Error BlockTypeError := ⟨BlockTypeError.DecodeIndex⟩
/-- src/decode/instructions.rs:1116 -/
instance : From IoError CatchError := ⟨CatchError.ReadMarkerByte⟩
/-- src/decode/instructions.rs:1122 -/
instance : From DecodeTagIdxError CatchError := ⟨CatchError.DecodeTagIdx⟩
/-- src/decode/instructions.rs:1125 -/
instance : From DecodeLabelIdxError CatchError := ⟨CatchError.DecodeLabelIdx⟩
/-- src/decode/sections/code.rs:12 -/
instance : From (DecodeListError DecodeCodeError) DecodeCodeSectionError := ⟨DecodeCodeSectionError.DecodeList⟩
/-- src/decode/sections/code.rs:35 -/
instance : From (DecodeListError DecodeCodeLocalsError) DecodeCodeError := ⟨DecodeCodeError.DecodeLocalsVector⟩
/-- src/decode/sections/code.rs:38 -/
instance : From ParseExpressionError DecodeCodeError := ⟨DecodeCodeError.DecodeFunctionBody⟩
/-- src/decode/sections/code.rs:94 -/
instance : From DecodeValTypeError DecodeCodeLocalsError := ⟨DecodeCodeLocalsError.DecodeLocalValType⟩
/-- src/decode/sections/custom.rs:9 -/
instance : From DecodeNameError DecodeCustomSectionError := ⟨DecodeCustomSectionError.DecodeName⟩
/-- src/decode/sections/custom.rs:12 -/
instance : From IoError DecodeCustomSectionError := ⟨DecodeCustomSectionError.Io⟩
/-- src/decode/sections/data.rs:15 -/
instance : From (DecodeListError DecodeDataSegmentError) DecodeDataSectionError := ⟨DecodeDataSectionError.DecodeList⟩
/-- src/decode/sections/data.rs:36 -/
instance : From DecodeByteVectorError DecodeDataSegmentError := ⟨DecodeDataSegmentError.DecodeInitVector⟩
/-- src/decode/sections/data.rs:39 -/
instance : From DecodeMemIdxError DecodeDataSegmentError := ⟨DecodeDataSegmentError.DecodeMemIdx⟩
/-- src/decode/sections/data_count.rs:8 -/
instance : From DecodeU32Error DecodeDataCountSectionError := ⟨DecodeDataCountSectionError.DecodeDataSegmentCount⟩
/-- src/decode/sections/element.rs:18 -/
instance : From (DecodeListError DecodeElementError) DecodeElementSectionError := ⟨DecodeElementSectionError.DecodeList⟩
/-- src/decode/sections/element.rs:43 -/
instance : From DecodeElementKindError DecodeElementError := ⟨DecodeElementError.DecodeElementKind⟩
/-- src/decode/sections/element.rs:49 -/
instance : From DecodeTableIdxError DecodeElementError := ⟨DecodeElementError.DecodeTableIdx⟩
/-- src/decode/sections/element.rs:52 -/
instance : From DecodeRefTypeError DecodeElementError := ⟨DecodeElementError.DecodeReferenceType⟩
/-- src/decode/sections/element.rs:58 -/
instance : From (DecodeListError DecodeFuncIdxError) DecodeElementError := ⟨DecodeElementError.DecodeFuncIdxVector⟩
/-- src/decode/sections/element.rs:169 -/
instance : From IoError DecodeElementKindError := ⟨DecodeElementKindError.Io⟩
/-- src/decode/sections/export.rs:13 -/
instance : From (DecodeListError DecodeExportError) DecodeExportSectionError := ⟨DecodeExportSectionError.DecodeList⟩
/-- src/decode/sections/export.rs:25 -/
instance : From DecodeNameError DecodeExportError := ⟨DecodeExportError.DecodeName⟩
/-- src/decode/sections/export.rs:31 -/
instance : From DecodeU32Error DecodeExportError := ⟨DecodeExportError.DecodeIndex⟩
/-- src/decode/sections/export.rs:34 -/
instance : From InvalidExportDescMarkerByte DecodeExportError := ⟨DecodeExportError.InvalidDescriptorMarkerByte⟩
/-- src/decode/sections/function.rs:10 -/
instance : From (DecodeListError DecodeTypeIdxError) DecodeFunctionSectionError := ⟨DecodeFunctionSectionError.DecodeList⟩
/-- src/decode/sections/global.rs:11 -/
instance : From (DecodeListError DecodeGlobalError) DecodeGlobalSectionError := ⟨DecodeGlobalSectionError.DecodeList⟩
/-- src/decode/sections/global.rs:23 -/
instance : From DecodeGlobalTypeError DecodeGlobalError := ⟨DecodeGlobalError.DecodeGlobalType⟩
/-- src/decode/sections/global.rs:26 -/
instance : From ParseExpressionError DecodeGlobalError := ⟨DecodeGlobalError.DecodeInit⟩
/-- src/decode/sections/import.rs:11 -/
instance : From (DecodeListError DecodeImportError) DecodeImportSectionError := ⟨DecodeImportSectionError.DecodeList⟩
/-- src/decode/sections/import.rs:33 -/
instance : From DecodeExternTypeError DecodeImportError := ⟨DecodeImportError.DecodeExternType⟩
/-- src/decode/sections/memory.rs:10 -/
instance : From (DecodeListError DecodeMemoryTypeError) DecodeMemorySectionError := ⟨DecodeMemorySectionError.DecodeList⟩
/-- src/decode/sections/start.rs:8 -/
instance : From DecodeFuncIdxError DecodeStartSectionError := ⟨DecodeStartSectionError.mk⟩
/-- src/decode/sections/table.rs:13 -/
instance : From (DecodeListError DecodeTableError) DecodeTableSectionError := ⟨DecodeTableSectionError.DecodeList⟩
/-- src/decode/sections/table.rs:28 -/
instance : From IoError DecodeTableError := ⟨DecodeTableError.Io⟩
/-- src/decode/sections/table.rs:34 -/
instance : From DecodeTableTypeError DecodeTableError := ⟨DecodeTableError.DecodeTableType⟩
/-- src/decode/sections/table.rs:37 -/
instance : From ParseExpressionError DecodeTableError := ⟨DecodeTableError.DecodeExpression⟩
/-- src/decode/sections/tag.rs:10 -/
instance : From (DecodeListError DecodeTagTypeError) DecodeTagSectionError := ⟨DecodeTagSectionError.DecodeList⟩
/-- src/decode/sections/type.rs:10 -/
instance : From (DecodeListError DecodeRecTypeError) DecodeTypeSectionError := ⟨DecodeTypeSectionError.DecodeList⟩
/-- src/decode/module.rs:80 -/
instance : From UInt8 InvalidSectionIdError := ⟨InvalidSectionIdError.mk⟩
/-- src/decode/module.rs:124 -/
instance : From ParsePreambleError DecodeModuleError := ⟨DecodeModuleError.ParsePreamble⟩
/-- src/decode/module.rs:161 -/
instance : From DecodeSectionHeaderError DecodeModuleError := ⟨DecodeModuleError.DecodeSectionHeader⟩
/-- src/decode/module.rs:164 -/
instance : From DecodeCustomSectionError DecodeModuleError := ⟨DecodeModuleError.DecodeCustomSection⟩
/-- src/decode/module.rs:167 -/
instance : From DecodeTypeSectionError DecodeModuleError := ⟨DecodeModuleError.DecodeTypeSection⟩
/-- src/decode/module.rs:170 -/
instance : From DecodeImportSectionError DecodeModuleError := ⟨DecodeModuleError.DecodeImportSection⟩
/-- src/decode/module.rs:173 -/
instance : From DecodeFunctionSectionError DecodeModuleError := ⟨DecodeModuleError.DecodeFunctionSection⟩
/-- src/decode/module.rs:176 -/
instance : From DecodeTableSectionError DecodeModuleError := ⟨DecodeModuleError.DecodeTableSection⟩
/-- src/decode/module.rs:179 -/
instance : From DecodeMemorySectionError DecodeModuleError := ⟨DecodeModuleError.DecodeMemorySection⟩
/-- src/decode/module.rs:182 -/
instance : From DecodeGlobalSectionError DecodeModuleError := ⟨DecodeModuleError.DecodeGlobalSection⟩
/-- src/decode/module.rs:185 -/
instance : From DecodeExportSectionError DecodeModuleError := ⟨DecodeModuleError.DecodeExportSection⟩
/-- src/decode/module.rs:188 -/
instance : From DecodeStartSectionError DecodeModuleError := ⟨DecodeModuleError.DecodeStartSection⟩
/-- src/decode/module.rs:191 -/
instance : From DecodeElementSectionError DecodeModuleError := ⟨DecodeModuleError.DecodeElementSection⟩
/-- src/decode/module.rs:194 -/
instance : From DecodeDataCountSectionError DecodeModuleError := ⟨DecodeModuleError.DecodeDatacountSection⟩
/-- src/decode/module.rs:197 -/
instance : From DecodeCodeSectionError DecodeModuleError := ⟨DecodeModuleError.DecodeCodeSection⟩
/-- src/decode/module.rs:200 -/
instance : From DecodeDataSectionError DecodeModuleError := ⟨DecodeModuleError.DecodeDataSection⟩
/-- src/decode/module.rs:203 -/
instance : From DecodeTagSectionError DecodeModuleError := ⟨DecodeModuleError.DecodeTagSection⟩
/-- src/decode/module.rs:356 -/
instance : From IoError ParsePreambleError := ⟨ParsePreambleError.Io⟩
/-- src/decode/module.rs:376 -/
instance : From IoError DecodeSectionHeaderError := ⟨DecodeSectionHeaderError.ReadSectionIdByte⟩
/-- src/decode/module.rs:379 -/
instance : From InvalidSectionIdError DecodeSectionHeaderError := ⟨DecodeSectionHeaderError.InvalidSectionId⟩
/-- src/decode/module.rs:382 -/
instance : From DecodeU32Error DecodeSectionHeaderError := ⟨DecodeSectionHeaderError.DecodeSectionSize⟩

end Wadec.Source
