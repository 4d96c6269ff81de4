import Verif.Core.Syntax

/-! Generated by tools/gen_eq.py: `PartialEq` as derived for `Instruction` (src/core/instruction.rs:7),
for the types that contain expressions, and for `Module` (src/core/module.rs:14).

A derived `eq` compares the variants and then the fields in order with their own `eq`.  All types
below the instructions are made of integers, booleans, strings and vectors, whose `eq` is equality;
`f32` and `f64` compare as IEEE 754 prescribes. -/

namespace Wadec

/-- The `==` of the payload of `F32Const` (src/core/instruction.rs:7): `f32 == f32` on bit patterns: false if one of them is a NaN (exponent all ones, mantissa not
zero); the two zeros are equal; otherwise the patterns must agree. -/
def f32Eq (a b : UInt32) : Bool :=
  let nan (x : UInt32) : Bool := (x &&& 0x7FFFFFFF) > 0x7F800000
  let zero (x : UInt32) : Bool := (x &&& 0x7FFFFFFF) = 0
  !nan a && !nan b && ((zero a && zero b) || a = b)

/-- The `==` of the payload of `F64Const` (src/core/instruction.rs:7): `f64 == f64` on bit patterns -/
def f64Eq (a b : UInt64) : Bool :=
  let nan (x : UInt64) : Bool := (x &&& 0x7FFFFFFFFFFFFFFF) > 0x7FF0000000000000
  let zero (x : UInt64) : Bool := (x &&& 0x7FFFFFFFFFFFFFFF) = 0
  !nan a && !nan b && ((zero a && zero b) || a = b)

mutual
/-- src/core/instruction.rs:7 `#[derive(PartialEq)]` of `Instruction` -/
def Instr.eq : Instr → Instr → Bool
  | .plain a0, o => match o with | .plain b0 => decide (a0 = b0) | _ => false
  | .mem a0 a1, o => match o with | .mem b0 b1 => decide (a0 = b0) && decide (a1 = b1) | _ => false
  | .memLane a0 a1 a2, o => match o with | .memLane b0 b1 b2 => decide (a0 = b0) && decide (a1 = b1) && decide (a2 = b2) | _ => false
  | .lane a0 a1, o => match o with | .lane b0 b1 => decide (a0 = b0) && decide (a1 = b1) | _ => false
  | .Block a0 a1, o => match o with | .Block b0 b1 => decide (a0 = b0) && instrsEq a1 b1 | _ => false
  | .Loop a0 a1, o => match o with | .Loop b0 b1 => decide (a0 = b0) && instrsEq a1 b1 | _ => false
  | .If a0 a1 a2, o => match o with | .If b0 b1 b2 => decide (a0 = b0) && instrsEq a1 b1 && instrsOptEq a2 b2 | _ => false
  | .Br a0, o => match o with | .Br b0 => decide (a0 = b0) | _ => false
  | .BrIf a0, o => match o with | .BrIf b0 => decide (a0 = b0) | _ => false
  | .BrTable a0 a1, o => match o with | .BrTable b0 b1 => decide (a0 = b0) && decide (a1 = b1) | _ => false
  | .BrOnNull a0, o => match o with | .BrOnNull b0 => decide (a0 = b0) | _ => false
  | .BrOnNonNull a0, o => match o with | .BrOnNonNull b0 => decide (a0 = b0) | _ => false
  | .BrOnCast a0 a1 a2, o => match o with | .BrOnCast b0 b1 b2 => decide (a0 = b0) && decide (a1 = b1) && decide (a2 = b2) | _ => false
  | .BrOnCastFail a0 a1 a2, o => match o with | .BrOnCastFail b0 b1 b2 => decide (a0 = b0) && decide (a1 = b1) && decide (a2 = b2) | _ => false
  | .Call a0, o => match o with | .Call b0 => decide (a0 = b0) | _ => false
  | .CallRef a0, o => match o with | .CallRef b0 => decide (a0 = b0) | _ => false
  | .CallIndirect a0 a1, o => match o with | .CallIndirect b0 b1 => decide (a0 = b0) && decide (a1 = b1) | _ => false
  | .ReturnCall a0, o => match o with | .ReturnCall b0 => decide (a0 = b0) | _ => false
  | .ReturnCallRef a0, o => match o with | .ReturnCallRef b0 => decide (a0 = b0) | _ => false
  | .ReturnCallIndirect a0 a1, o => match o with | .ReturnCallIndirect b0 b1 => decide (a0 = b0) && decide (a1 = b1) | _ => false
  | .Throw a0, o => match o with | .Throw b0 => decide (a0 = b0) | _ => false
  | .TryTable a0 a1 a2, o => match o with | .TryTable b0 b1 b2 => decide (a0 = b0) && decide (a1 = b1) && instrsEq a2 b2 | _ => false
  | .RefFunc a0, o => match o with | .RefFunc b0 => decide (a0 = b0) | _ => false
  | .RefNull a0, o => match o with | .RefNull b0 => decide (a0 = b0) | _ => false
  | .RefTest a0, o => match o with | .RefTest b0 => decide (a0 = b0) | _ => false
  | .RefCast a0, o => match o with | .RefCast b0 => decide (a0 = b0) | _ => false
  | .StructNew a0, o => match o with | .StructNew b0 => decide (a0 = b0) | _ => false
  | .StructNewDefault a0, o => match o with | .StructNewDefault b0 => decide (a0 = b0) | _ => false
  | .StructGet a0 a1, o => match o with | .StructGet b0 b1 => decide (a0 = b0) && decide (a1 = b1) | _ => false
  | .StructGetS a0 a1, o => match o with | .StructGetS b0 b1 => decide (a0 = b0) && decide (a1 = b1) | _ => false
  | .StructGetU a0 a1, o => match o with | .StructGetU b0 b1 => decide (a0 = b0) && decide (a1 = b1) | _ => false
  | .StructSet a0 a1, o => match o with | .StructSet b0 b1 => decide (a0 = b0) && decide (a1 = b1) | _ => false
  | .ArrayNew a0, o => match o with | .ArrayNew b0 => decide (a0 = b0) | _ => false
  | .ArrayNewDefault a0, o => match o with | .ArrayNewDefault b0 => decide (a0 = b0) | _ => false
  | .ArrayNewFixed a0 a1, o => match o with | .ArrayNewFixed b0 b1 => decide (a0 = b0) && decide (a1 = b1) | _ => false
  | .ArrayNewData a0 a1, o => match o with | .ArrayNewData b0 b1 => decide (a0 = b0) && decide (a1 = b1) | _ => false
  | .ArrayNewElem a0 a1, o => match o with | .ArrayNewElem b0 b1 => decide (a0 = b0) && decide (a1 = b1) | _ => false
  | .ArrayGet a0, o => match o with | .ArrayGet b0 => decide (a0 = b0) | _ => false
  | .ArrayGetS a0, o => match o with | .ArrayGetS b0 => decide (a0 = b0) | _ => false
  | .ArrayGetU a0, o => match o with | .ArrayGetU b0 => decide (a0 = b0) | _ => false
  | .ArraySet a0, o => match o with | .ArraySet b0 => decide (a0 = b0) | _ => false
  | .ArrayFill a0, o => match o with | .ArrayFill b0 => decide (a0 = b0) | _ => false
  | .ArrayCopy a0 a1, o => match o with | .ArrayCopy b0 b1 => decide (a0 = b0) && decide (a1 = b1) | _ => false
  | .ArrayInitData a0 a1, o => match o with | .ArrayInitData b0 b1 => decide (a0 = b0) && decide (a1 = b1) | _ => false
  | .ArrayInitElem a0 a1, o => match o with | .ArrayInitElem b0 b1 => decide (a0 = b0) && decide (a1 = b1) | _ => false
  | .Select a0, o => match o with | .Select b0 => decide (a0 = b0) | _ => false
  | .LocalGet a0, o => match o with | .LocalGet b0 => decide (a0 = b0) | _ => false
  | .LocalSet a0, o => match o with | .LocalSet b0 => decide (a0 = b0) | _ => false
  | .LocalTee a0, o => match o with | .LocalTee b0 => decide (a0 = b0) | _ => false
  | .GlobalGet a0, o => match o with | .GlobalGet b0 => decide (a0 = b0) | _ => false
  | .GlobalSet a0, o => match o with | .GlobalSet b0 => decide (a0 = b0) | _ => false
  | .TableGet a0, o => match o with | .TableGet b0 => decide (a0 = b0) | _ => false
  | .TableSet a0, o => match o with | .TableSet b0 => decide (a0 = b0) | _ => false
  | .TableInit a0 a1, o => match o with | .TableInit b0 b1 => decide (a0 = b0) && decide (a1 = b1) | _ => false
  | .ElemDrop a0, o => match o with | .ElemDrop b0 => decide (a0 = b0) | _ => false
  | .TableCopy a0 a1, o => match o with | .TableCopy b0 b1 => decide (a0 = b0) && decide (a1 = b1) | _ => false
  | .TableGrow a0, o => match o with | .TableGrow b0 => decide (a0 = b0) | _ => false
  | .TableSize a0, o => match o with | .TableSize b0 => decide (a0 = b0) | _ => false
  | .TableFill a0, o => match o with | .TableFill b0 => decide (a0 = b0) | _ => false
  | .MemorySize a0, o => match o with | .MemorySize b0 => decide (a0 = b0) | _ => false
  | .MemoryGrow a0, o => match o with | .MemoryGrow b0 => decide (a0 = b0) | _ => false
  | .MemoryInit a0 a1, o => match o with | .MemoryInit b0 b1 => decide (a0 = b0) && decide (a1 = b1) | _ => false
  | .DataDrop a0, o => match o with | .DataDrop b0 => decide (a0 = b0) | _ => false
  | .MemoryCopy a0 a1, o => match o with | .MemoryCopy b0 b1 => decide (a0 = b0) && decide (a1 = b1) | _ => false
  | .MemoryFill a0, o => match o with | .MemoryFill b0 => decide (a0 = b0) | _ => false
  | .I32Const a0, o => match o with | .I32Const b0 => decide (a0 = b0) | _ => false
  | .I64Const a0, o => match o with | .I64Const b0 => decide (a0 = b0) | _ => false
  | .F32Const a0, o => match o with | .F32Const b0 => f32Eq a0 b0 | _ => false
  | .F64Const a0, o => match o with | .F64Const b0 => f64Eq a0 b0 | _ => false
  | .V128Const a0, o => match o with | .V128Const b0 => decide (a0 = b0) | _ => false
  | .I8x16Shuffle a0, o => match o with | .I8x16Shuffle b0 => decide (a0 = b0) | _ => false
/-- `Vec<Instruction>` in the variants of src/core/instruction.rs:7-520 -/
def instrsEq : List Instr → List Instr → Bool
  | [], o => match o with | [] => true | _ => false
  | a :: as, o => match o with | b :: bs => Instr.eq a b && instrsEq as bs | _ => false
/-- `Option<Vec<Instruction>>` in the variants of src/core/instruction.rs:7-520 -/
def instrsOptEq : Option (List Instr) → Option (List Instr) → Bool
  | none, o => match o with | none => true | _ => false
  | some a, o => match o with | some b => instrsEq a b | _ => false
end

/-- `Vec<T>: PartialEq`, used by the derive at src/core/module.rs:14 -/
def vecEq {α : Type} (eq : α → α → Bool) : List α → List α → Bool
  | [], [] => true
  | a :: as, b :: bs => eq a b && vecEq eq as bs
  | _, _ => false

/-- src/core/mod.rs:20 `Expr` is a `Vec<Instruction>` -/
def Expr.eq (a b : Expr) : Bool := instrsEq a b

/-- src/core/mod.rs:70 derived `PartialEq` of `Func` -/
def Func.eq (a b : Func) : Bool :=
  decide (a.type = b.type) && decide (a.locals = b.locals) && Expr.eq a.body b.body

/-- src/core/mod.rs:163 derived `PartialEq` of `Table` -/
def Table.eq (a b : Table) : Bool := decide (a.type = b.type) && Expr.eq a.init b.init

/-- src/core/mod.rs:96 derived `PartialEq` of `Global` -/
def Global.eq (a b : Global) : Bool := decide (a.type = b.type) && Expr.eq a.init b.init

/-- src/core/mod.rs:147 derived `PartialEq` of `ElemMode` -/
def ElemMode.eq : ElemMode → ElemMode → Bool
  | .Passive, .Passive => true
  | .Active t o, .Active t' o' => decide (t = t') && Expr.eq o o'
  | .Declare, .Declare => true
  | _, _ => false

/-- src/core/mod.rs:140 derived `PartialEq` of `Elem` -/
def Elem.eq (a b : Elem) : Bool :=
  decide (a.type = b.type) && vecEq Expr.eq a.init b.init && ElemMode.eq a.mode b.mode

/-- src/core/mod.rs:119 derived `PartialEq` of `DataMode` -/
def DataMode.eq : DataMode → DataMode → Bool
  | .Passive, .Passive => true
  | .Active m o, .Active m' o' => decide (m = m') && Expr.eq o o'
  | _, _ => false

/-- src/core/mod.rs:113 derived `PartialEq` of `Data` -/
def Data.eq (a b : Data) : Bool := decide (a.init = b.init) && DataMode.eq a.mode b.mode

/-- src/core/module.rs:14 derived `PartialEq` of `Module` -/
def Module.eq (a b : Module) : Bool :=
  decide (a.version = b.version) && decide (a.parsed_section_kinds = b.parsed_section_kinds) &&
  decide (a.section_headers = b.section_headers) && decide (a.custom_sections = b.custom_sections) &&
  decide (a.types = b.types) && vecEq Func.eq a.funcs b.funcs && vecEq Table.eq a.tables b.tables &&
  decide (a.mems = b.mems) && vecEq Global.eq a.globals b.globals && vecEq Elem.eq a.elems b.elems &&
  decide (a.data_count = b.data_count) && vecEq Data.eq a.datas b.datas &&
  decide (a.start = b.start) && decide (a.imports = b.imports) && decide (a.exports = b.exports) &&
  decide (a.tags = b.tags)

end Wadec
