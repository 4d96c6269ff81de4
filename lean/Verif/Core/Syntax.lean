import Verif.Core.Types
import Verif.Core.Ops

/-! Abstract syntax: instructions and modules (/repo/src/core/instruction.rs,
/repo/src/core/mod.rs, /repo/src/core/module.rs, /repo/src/core/custom_section.rs). -/

namespace Wadec

/-- src/core/instruction.rs:286-287: `[u8; 16]`, payload of `V128Const` and (as `[LaneIdx; 16]`) of `I8x16Shuffle`. -/
def Bytes16 : Type := { l : List UInt8 // l.length = 16 }

instance : DecidableEq Bytes16 := inferInstanceAs (DecidableEq { l : List UInt8 // l.length = 16 })
instance : Repr Bytes16 := ⟨fun b n => reprPrec b.val n⟩

/-- src/core/instruction.rs:525-530 `Memarg` -/
structure Memarg where
  mem_idx : MemIdx
  align : UInt32
  offset : UInt64
  deriving DecidableEq, Repr

/-- src/core/instruction.rs:536-537 `LaneIdx` -/
structure LaneIdx where val : UInt8
  deriving DecidableEq, Repr

/-- src/core/instruction.rs:539-544 `BlockType` -/
inductive BlockType where
  | Empty
  | T (t : ValType)
  | I (x : UInt32)
  deriving DecidableEq, Repr

/-- src/core/instruction.rs:546-552 `Catch` -/
inductive Catch where
  | Catch (x : TagIdx) (l : LabelIdx)
  | CatchRef (x : TagIdx) (l : LabelIdx)
  | CatchAll (l : LabelIdx)
  | CatchAllRef (l : LabelIdx)
  deriving DecidableEq, Repr

/-- src/core/instruction.rs:8-520 `Instruction`.  The four families of Verif/Core/Ops.lean are
grouped (`plain`, `mem`, `memLane`, `lane`); every other variant appears under its own name.
`f32`/`f64` constants are their bit patterns (`f32::to_bits`). -/
inductive Instr where
  | plain (op : PlainOp)
  | mem (op : MemOp) (m : Memarg)
  | memLane (op : MemLaneOp) (m : Memarg) (l : LaneIdx)
  | lane (op : LaneOp) (l : LaneIdx)
  | Block (bt : BlockType) (body : List Instr)
  | Loop (bt : BlockType) (body : List Instr)
  | If (bt : BlockType) (thenBody : List Instr) (elseBody : Option (List Instr))
  | Br (l : LabelIdx)
  | BrIf (l : LabelIdx)
  | BrTable (ls : List LabelIdx) (l : LabelIdx)
  | BrOnNull (l : LabelIdx)
  | BrOnNonNull (l : LabelIdx)
  | BrOnCast (l : LabelIdx) (rt1 rt2 : RefType)
  | BrOnCastFail (l : LabelIdx) (rt1 rt2 : RefType)
  | Call (x : FuncIdx)
  | CallRef (x : TypeIdx)
  | CallIndirect (x : TableIdx) (y : TypeIdx)
  | ReturnCall (x : FuncIdx)
  | ReturnCallRef (x : TypeIdx)
  | ReturnCallIndirect (x : TableIdx) (y : TypeIdx)
  | Throw (x : TagIdx)
  | TryTable (bt : BlockType) (cs : List Catch) (body : List Instr)
  | RefFunc (x : FuncIdx)
  | RefNull (ht : HeapType)
  | RefTest (rt : RefType)
  | RefCast (rt : RefType)
  | StructNew (x : TypeIdx)
  | StructNewDefault (x : TypeIdx)
  | StructGet (x : TypeIdx) (i : UInt32)
  | StructGetS (x : TypeIdx) (i : UInt32)
  | StructGetU (x : TypeIdx) (i : UInt32)
  | StructSet (x : TypeIdx) (i : UInt32)
  | ArrayNew (x : TypeIdx)
  | ArrayNewDefault (x : TypeIdx)
  | ArrayNewFixed (x : TypeIdx) (n : UInt32)
  | ArrayNewData (x : TypeIdx) (y : DataIdx)
  | ArrayNewElem (x : TypeIdx) (y : ElemIdx)
  | ArrayGet (x : TypeIdx)
  | ArrayGetS (x : TypeIdx)
  | ArrayGetU (x : TypeIdx)
  | ArraySet (x : TypeIdx)
  | ArrayFill (x : TypeIdx)
  | ArrayCopy (x y : TypeIdx)
  | ArrayInitData (x : TypeIdx) (y : DataIdx)
  | ArrayInitElem (x : TypeIdx) (y : ElemIdx)
  | Select (ts : Option (List ValType))
  | LocalGet (x : LocalIdx)
  | LocalSet (x : LocalIdx)
  | LocalTee (x : LocalIdx)
  | GlobalGet (x : GlobalIdx)
  | GlobalSet (x : GlobalIdx)
  | TableGet (x : TableIdx)
  | TableSet (x : TableIdx)
  | TableInit (x : TableIdx) (y : ElemIdx)
  | ElemDrop (x : ElemIdx)
  | TableCopy (x y : TableIdx)
  | TableGrow (x : TableIdx)
  | TableSize (x : TableIdx)
  | TableFill (x : TableIdx)
  | MemorySize (x : MemIdx)
  | MemoryGrow (x : MemIdx)
  | MemoryInit (x : MemIdx) (y : DataIdx)
  | DataDrop (x : DataIdx)
  | MemoryCopy (x y : MemIdx)
  | MemoryFill (x : MemIdx)
  | I32Const (v : Int32)
  | I64Const (v : Int64)
  | F32Const (bits : UInt32)
  | F64Const (bits : UInt64)
  | V128Const (v : Bytes16)
  | I8x16Shuffle (lanes : Bytes16)
  deriving Repr

/-- src/core/mod.rs:20 `Expr` -/
abbrev Expr := List Instr

/-- src/core/mod.rs:34-38 `Import` -/
structure Import where
  module_name : Str
  item_name : Str
  extern_type : ExternType
  deriving DecidableEq, Repr

/-- src/core/mod.rs:54-60 `ExternIdx` -/
inductive ExternIdx where
  | Func (x : FuncIdx)
  | Global (x : GlobalIdx)
  | Table (x : TableIdx)
  | Mem (x : MemIdx)
  | Tag (x : TagIdx)
  deriving DecidableEq, Repr

/-- src/core/mod.rs:48-51 `Export` -/
structure Export where
  name : Str
  externidx : ExternIdx
  deriving DecidableEq, Repr

/-- src/core/mod.rs:70-85 `Func` -/
structure Func where
  type : TypeIdx
  locals : List ValType
  body : Expr
  deriving Repr

/-- src/core/mod.rs:96-99 `Global` -/
structure Global where
  type : GlobalType
  init : Expr
  deriving Repr

/-- src/core/mod.rs:119-122 `DataMode` -/
inductive DataMode where
  | Passive
  | Active (memory : MemIdx) (offset : Expr)
  deriving Repr

/-- src/core/mod.rs:113-116 `Data` -/
structure Data where
  init : List UInt8
  mode : DataMode
  deriving Repr

/-- src/core/mod.rs:147-151 `ElemMode` -/
inductive ElemMode where
  | Passive
  | Active (table : TableIdx) (offset : Expr)
  | Declare
  deriving Repr

/-- src/core/mod.rs:140-144 `Elem` -/
structure Elem where
  type : RefType
  init : List Expr
  mode : ElemMode
  deriving Repr

/-- src/core/mod.rs:163 `Table` -/
structure Table where
  type : TableType
  init : Expr
  deriving Repr

/-- src/core/custom_section.rs:12-16 -/
structure CustomSection where
  name : Str
  contents : List UInt8
  deriving DecidableEq, Repr

/-- src/core/module.rs:171-187 `SectionKind`, in declaration order (which `PartialOrd` uses). -/
inductive SectionKind where
  | Custom | Type | Import | Function | Table | Memory | Tag | Global | Export | Start | Element
  | DataCount | Code | Data
  deriving DecidableEq, Repr

/-- src/core/module.rs:165-169 `SectionHeader` -/
structure SectionHeader where
  kind : SectionKind
  size : UInt32
  deriving DecidableEq, Repr

/-- src/core/module.rs:15-159 `Module`; fields in the same order. -/
structure Module where
  version : List UInt8
  parsed_section_kinds : List SectionKind
  section_headers : List SectionHeader
  custom_sections : List CustomSection
  types : List RecType
  funcs : List Func
  tables : List Table
  mems : List MemType
  globals : List Global
  elems : List Elem
  data_count : Option UInt32
  datas : List Data
  start : Option FuncIdx
  imports : List Import
  exports : List Export
  tags : List TagType
  deriving Repr

end Wadec
