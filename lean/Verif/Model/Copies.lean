import Verif.Core.Syntax

/-! Generated by tools/gen_copies.py: what `#[derive(Clone)]` and `#[derive(Hash)]` produce.

A derived `clone` matches on the variant and rebuilds it from the clones of its fields, in order.  For a type without parameters
that also derives `Copy`, it is `*self`.  `Vec<T>` clones its elements in order, `Option<T>` what is in it. -/

namespace Wadec

/-- `Clone` (derived at src/core/instruction.rs:7 and the lines cited below) -/
class RClone (α : Type) where
  /-- `fn clone(&self) -> Self` (src/core/instruction.rs:7) -/
  clone : α → α

/-! ### Types that are `Copy`: `*self` -/

/-- `u32` in the fields of src/core/instruction.rs:8-520 -/
instance : RClone UInt32 := ⟨fun self => self⟩
/-- `u64` and `f64` in the fields of src/core/instruction.rs:8-520 -/
instance : RClone UInt64 := ⟨fun self => self⟩
/-- `i32` in src/core/instruction.rs:8-520 -/
instance : RClone Int32 := ⟨fun self => self⟩
/-- `i64` in src/core/instruction.rs:8-520 -/
instance : RClone Int64 := ⟨fun self => self⟩
/-- `bool` in src/core/types/rectype.rs:15 -/
instance : RClone Bool := ⟨fun self => self⟩
/-- `[u8; 16]`, `[LaneIdx; 16]` in src/core/instruction.rs:286-287 (arrays of `Copy` elements are `Copy`) -/
instance : RClone Bytes16 := ⟨fun self => self⟩
/-- src/core/types/addrtype.rs:5 -/
instance : RClone AddrType := ⟨fun self => self⟩
/-- src/core/types/numtype.rs:15 -/
instance : RClone NumType := ⟨fun self => self⟩
/-- src/core/types/vectype.rs:14 -/
instance : RClone VecType := ⟨fun self => self⟩
/-- src/core/types/heaptype.rs:50 -/
instance : RClone AbsHeapType := ⟨fun self => self⟩
/-- src/core/types/heaptype.rs:44 -/
instance : RClone HeapType := ⟨fun self => self⟩
/-- src/core/types/reftype.rs:9 -/
instance : RClone RefType := ⟨fun self => self⟩
/-- src/core/types/valtype.rs:11 -/
instance : RClone ValType := ⟨fun self => self⟩
/-- src/core/types/globaltype.rs:11 -/
instance : RClone Mut := ⟨fun self => self⟩
/-- src/core/types/comptype.rs:30 -/
instance : RClone PackType := ⟨fun self => self⟩
/-- src/core/types/comptype.rs:24 -/
instance : RClone StorageType := ⟨fun self => self⟩
/-- src/core/types/comptype.rs:21 -/
instance : RClone FieldType := ⟨fun self => self⟩
/-- src/core/types/tagtype.rs:9 -/
instance : RClone TagType := ⟨fun self => self⟩
/-- src/core/instruction.rs:525 -/
instance : RClone Memarg := ⟨fun self => self⟩
/-- src/core/instruction.rs:536 -/
instance : RClone LaneIdx := ⟨fun self => self⟩
/-- src/core/module.rs:171 -/
instance : RClone SectionKind := ⟨fun self => self⟩
/-- src/core/indices.rs:7, 12 -/
instance : RClone TypeIdx := ⟨fun self => self⟩
/-- src/core/indices.rs:7, 13 -/
instance : RClone FuncIdx := ⟨fun self => self⟩
/-- src/core/indices.rs:7, 14 -/
instance : RClone TableIdx := ⟨fun self => self⟩
/-- src/core/indices.rs:7, 15 -/
instance : RClone MemIdx := ⟨fun self => self⟩
/-- src/core/indices.rs:7, 16 -/
instance : RClone GlobalIdx := ⟨fun self => self⟩
/-- src/core/indices.rs:7, 17 -/
instance : RClone ElemIdx := ⟨fun self => self⟩
/-- src/core/indices.rs:7, 18 -/
instance : RClone DataIdx := ⟨fun self => self⟩
/-- src/core/indices.rs:7, 19 -/
instance : RClone LocalIdx := ⟨fun self => self⟩
/-- src/core/indices.rs:7, 20 -/
instance : RClone LabelIdx := ⟨fun self => self⟩
/-- src/core/indices.rs:7, 21 -/
instance : RClone TagIdx := ⟨fun self => self⟩
/-- which of the variants without fields of src/core/instruction.rs:8-520 it is -/
instance : RClone PlainOp := ⟨fun self => self⟩
/-- which of the variants with a `Memarg` of src/core/instruction.rs:8-520 it is -/
instance : RClone MemOp := ⟨fun self => self⟩
/-- which of the variants with a `Memarg` and a lane of src/core/instruction.rs:8-520 it is -/
instance : RClone MemLaneOp := ⟨fun self => self⟩
/-- which of the variants with a lane of src/core/instruction.rs:8-520 it is -/
instance : RClone LaneOp := ⟨fun self => self⟩

/-! ### Types that are not -/

/-- `Vec<T>: Clone`, in src/core/types/comptype.rs:9, rectype.rs:10-13, instruction.rs:7 -/
def cloneVec {α : Type} [RClone α] : List α → List α
  | [] => []
  | a :: as => RClone.clone a :: cloneVec as

/-- `Vec<T>: Clone`, in src/core/types/comptype.rs:9, rectype.rs:10-13, instruction.rs:7 -/
instance {α : Type} [RClone α] : RClone (List α) := ⟨cloneVec⟩

/-- `Option<T>: Clone`, in src/core/instruction.rs:7 -/
instance {α : Type} [RClone α] : RClone (Option α) := ⟨fun | none => none | some a => some (RClone.clone a)⟩

/-- src/core/types/comptype.rs:9 -/
instance : RClone CompType where
  clone
    | .Struct a0 => .Struct (RClone.clone a0)
    | .Array a0 => .Array (RClone.clone a0)
    | .Func a0 a1 => .Func (RClone.clone a0) (RClone.clone a1)

/-- src/core/types/rectype.rs:13 -/
instance : RClone SubType where
  clone s := { is_final := RClone.clone s.is_final, supertypes := RClone.clone s.supertypes, comptype := RClone.clone s.comptype }

/-- src/core/types/rectype.rs:10 -/
instance : RClone RecType where
  clone r := { subtypes := RClone.clone r.subtypes }

/-- src/core/instruction.rs:539 -/
instance : RClone BlockType where
  clone
    | .Empty => .Empty
    | .T a0 => .T (RClone.clone a0)
    | .I a0 => .I (RClone.clone a0)

/-- src/core/instruction.rs:546 -/
instance : RClone Catch where
  clone
    | .Catch a0 a1 => .Catch (RClone.clone a0) (RClone.clone a1)
    | .CatchRef a0 a1 => .CatchRef (RClone.clone a0) (RClone.clone a1)
    | .CatchAll a0 => .CatchAll (RClone.clone a0)
    | .CatchAllRef a0 => .CatchAllRef (RClone.clone a0)

mutual
/-- src/core/instruction.rs:7 -/
def cloneInstr : Instr → Instr
  | .plain a0 => .plain (RClone.clone a0)
  | .mem a0 a1 => .mem (RClone.clone a0) (RClone.clone a1)
  | .memLane a0 a1 a2 => .memLane (RClone.clone a0) (RClone.clone a1) (RClone.clone a2)
  | .lane a0 a1 => .lane (RClone.clone a0) (RClone.clone a1)
  | .Block a0 a1 => .Block (RClone.clone a0) (cloneInstrs a1)
  | .Loop a0 a1 => .Loop (RClone.clone a0) (cloneInstrs a1)
  | .If a0 a1 a2 => .If (RClone.clone a0) (cloneInstrs a1) (cloneInstrsOpt a2)
  | .Br a0 => .Br (RClone.clone a0)
  | .BrIf a0 => .BrIf (RClone.clone a0)
  | .BrTable a0 a1 => .BrTable (RClone.clone a0) (RClone.clone a1)
  | .BrOnNull a0 => .BrOnNull (RClone.clone a0)
  | .BrOnNonNull a0 => .BrOnNonNull (RClone.clone a0)
  | .BrOnCast a0 a1 a2 => .BrOnCast (RClone.clone a0) (RClone.clone a1) (RClone.clone a2)
  | .BrOnCastFail a0 a1 a2 => .BrOnCastFail (RClone.clone a0) (RClone.clone a1) (RClone.clone a2)
  | .Call a0 => .Call (RClone.clone a0)
  | .CallRef a0 => .CallRef (RClone.clone a0)
  | .CallIndirect a0 a1 => .CallIndirect (RClone.clone a0) (RClone.clone a1)
  | .ReturnCall a0 => .ReturnCall (RClone.clone a0)
  | .ReturnCallRef a0 => .ReturnCallRef (RClone.clone a0)
  | .ReturnCallIndirect a0 a1 => .ReturnCallIndirect (RClone.clone a0) (RClone.clone a1)
  | .Throw a0 => .Throw (RClone.clone a0)
  | .TryTable a0 a1 a2 => .TryTable (RClone.clone a0) (RClone.clone a1) (cloneInstrs a2)
  | .RefFunc a0 => .RefFunc (RClone.clone a0)
  | .RefNull a0 => .RefNull (RClone.clone a0)
  | .RefTest a0 => .RefTest (RClone.clone a0)
  | .RefCast a0 => .RefCast (RClone.clone a0)
  | .StructNew a0 => .StructNew (RClone.clone a0)
  | .StructNewDefault a0 => .StructNewDefault (RClone.clone a0)
  | .StructGet a0 a1 => .StructGet (RClone.clone a0) (RClone.clone a1)
  | .StructGetS a0 a1 => .StructGetS (RClone.clone a0) (RClone.clone a1)
  | .StructGetU a0 a1 => .StructGetU (RClone.clone a0) (RClone.clone a1)
  | .StructSet a0 a1 => .StructSet (RClone.clone a0) (RClone.clone a1)
  | .ArrayNew a0 => .ArrayNew (RClone.clone a0)
  | .ArrayNewDefault a0 => .ArrayNewDefault (RClone.clone a0)
  | .ArrayNewFixed a0 a1 => .ArrayNewFixed (RClone.clone a0) (RClone.clone a1)
  | .ArrayNewData a0 a1 => .ArrayNewData (RClone.clone a0) (RClone.clone a1)
  | .ArrayNewElem a0 a1 => .ArrayNewElem (RClone.clone a0) (RClone.clone a1)
  | .ArrayGet a0 => .ArrayGet (RClone.clone a0)
  | .ArrayGetS a0 => .ArrayGetS (RClone.clone a0)
  | .ArrayGetU a0 => .ArrayGetU (RClone.clone a0)
  | .ArraySet a0 => .ArraySet (RClone.clone a0)
  | .ArrayFill a0 => .ArrayFill (RClone.clone a0)
  | .ArrayCopy a0 a1 => .ArrayCopy (RClone.clone a0) (RClone.clone a1)
  | .ArrayInitData a0 a1 => .ArrayInitData (RClone.clone a0) (RClone.clone a1)
  | .ArrayInitElem a0 a1 => .ArrayInitElem (RClone.clone a0) (RClone.clone a1)
  | .Select a0 => .Select (RClone.clone a0)
  | .LocalGet a0 => .LocalGet (RClone.clone a0)
  | .LocalSet a0 => .LocalSet (RClone.clone a0)
  | .LocalTee a0 => .LocalTee (RClone.clone a0)
  | .GlobalGet a0 => .GlobalGet (RClone.clone a0)
  | .GlobalSet a0 => .GlobalSet (RClone.clone a0)
  | .TableGet a0 => .TableGet (RClone.clone a0)
  | .TableSet a0 => .TableSet (RClone.clone a0)
  | .TableInit a0 a1 => .TableInit (RClone.clone a0) (RClone.clone a1)
  | .ElemDrop a0 => .ElemDrop (RClone.clone a0)
  | .TableCopy a0 a1 => .TableCopy (RClone.clone a0) (RClone.clone a1)
  | .TableGrow a0 => .TableGrow (RClone.clone a0)
  | .TableSize a0 => .TableSize (RClone.clone a0)
  | .TableFill a0 => .TableFill (RClone.clone a0)
  | .MemorySize a0 => .MemorySize (RClone.clone a0)
  | .MemoryGrow a0 => .MemoryGrow (RClone.clone a0)
  | .MemoryInit a0 a1 => .MemoryInit (RClone.clone a0) (RClone.clone a1)
  | .DataDrop a0 => .DataDrop (RClone.clone a0)
  | .MemoryCopy a0 a1 => .MemoryCopy (RClone.clone a0) (RClone.clone a1)
  | .MemoryFill a0 => .MemoryFill (RClone.clone a0)
  | .I32Const a0 => .I32Const (RClone.clone a0)
  | .I64Const a0 => .I64Const (RClone.clone a0)
  | .F32Const a0 => .F32Const (RClone.clone a0)
  | .F64Const a0 => .F64Const (RClone.clone a0)
  | .V128Const a0 => .V128Const (RClone.clone a0)
  | .I8x16Shuffle a0 => .I8x16Shuffle (RClone.clone a0)
/-- `Vec<Instruction>` in the variants of src/core/instruction.rs:7-520 -/
def cloneInstrs : List Instr → List Instr
  | [] => []
  | a :: as => cloneInstr a :: cloneInstrs as
/-- `Option<Vec<Instruction>>` in the variants of src/core/instruction.rs:7-520 -/
def cloneInstrsOpt : Option (List Instr) → Option (List Instr)
  | none => none
  | some a => some (cloneInstrs a)
end

/-- src/core/instruction.rs:7 -/
instance : RClone Instr := ⟨cloneInstr⟩

/-! ### Hash -/

/-- `core::hash::Hasher` as far as the derive at src/core/indices.rs:7 uses it: a state that is fed a `u32`, and its result. -/
class Hasher (H : Type) where
  /-- `fn write_u32(&mut self, i: u32)` (called from src/core/indices.rs:7) -/
  write_u32 : H → UInt32 → H
  /-- `fn finish(&self) -> u64` (of the map that uses the derive at src/core/indices.rs:7) -/
  finish : H → UInt64

/-- `Hash` (derived at src/core/indices.rs:7) -/
class RHash (α : Type) where
  /-- `fn hash<H: Hasher>(&self, state: &mut H)` (src/core/indices.rs:7) -/
  hash : {H : Type} → [Hasher H] → α → H → H

/-- `u32: Hash`, for the field of src/core/indices.rs:8 -/
instance : RHash UInt32 := ⟨fun self state => Hasher.write_u32 state self⟩

/-- src/core/indices.rs:7, 12: the hash of its field -/
instance : RHash TypeIdx := ⟨fun self state => RHash.hash self.val state⟩
/-- src/core/indices.rs:7, 13: the hash of its field -/
instance : RHash FuncIdx := ⟨fun self state => RHash.hash self.val state⟩
/-- src/core/indices.rs:7, 14: the hash of its field -/
instance : RHash TableIdx := ⟨fun self state => RHash.hash self.val state⟩
/-- src/core/indices.rs:7, 15: the hash of its field -/
instance : RHash MemIdx := ⟨fun self state => RHash.hash self.val state⟩
/-- src/core/indices.rs:7, 16: the hash of its field -/
instance : RHash GlobalIdx := ⟨fun self state => RHash.hash self.val state⟩
/-- src/core/indices.rs:7, 17: the hash of its field -/
instance : RHash ElemIdx := ⟨fun self state => RHash.hash self.val state⟩
/-- src/core/indices.rs:7, 18: the hash of its field -/
instance : RHash DataIdx := ⟨fun self state => RHash.hash self.val state⟩
/-- src/core/indices.rs:7, 19: the hash of its field -/
instance : RHash LocalIdx := ⟨fun self state => RHash.hash self.val state⟩
/-- src/core/indices.rs:7, 20: the hash of its field -/
instance : RHash LabelIdx := ⟨fun self state => RHash.hash self.val state⟩
/-- src/core/indices.rs:7, 21: the hash of its field -/
instance : RHash TagIdx := ⟨fun self state => RHash.hash self.val state⟩

end Wadec
