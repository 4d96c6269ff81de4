import Verif.Spec.Binary
import Verif.Spec.Opcodes

/-! The binary format of instructions and expressions (WebAssembly 3.0, 5.4). -/

namespace Wadec.Spec

/-- An encoding of an opcode: the byte itself, or the prefix byte followed by a `u32`. -/
inductive BOpcode : Bytes → Opcode → Prop
  | byte {b : UInt8} : BOpcode [b] (.byte b)
  | fb {bs : Bytes} {n : Nat} : BU 32 bs n → BOpcode (0xFB :: bs) (.fb n)
  | fc {bs : Bytes} {n : Nat} : BU 32 bs n → BOpcode (0xFC :: bs) (.fc n)
  | fd {bs : Bytes} {n : Nat} : BU 32 bs n → BOpcode (0xFD :: bs) (.fd n)

/-- `memarg ::= n:u32 m:u64 ⇒ (0, {align n, offset m}) (if n < 2^6) | n:u32 x:memidx m:u64 ⇒
(x, {align (n − 2^6), offset m}) (if 2^6 ≤ n < 2^7)` -/
inductive BMemarg : Bytes → Memarg → Prop
  | mem0 {b1 b2 : Bytes} {n : UInt32} {m : UInt64} : BU32 b1 n → n.toNat < 2 ^ 6 → BU64 b2 m →
      BMemarg (b1 ++ b2) ⟨⟨0⟩, n, m⟩
  | memx {b1 b2 b3 : Bytes} {n a : UInt32} {x : MemIdx} {m : UInt64} : BU32 b1 n →
      2 ^ 6 ≤ n.toNat → n.toNat < 2 ^ 7 → a.toNat = n.toNat - 2 ^ 6 → BMemIdx b2 x → BU64 b3 m →
      BMemarg (b1 ++ (b2 ++ b3)) ⟨x, a, m⟩

/-- `laneidx ::= byte` -/
def BLaneIdx (bs : Bytes) (l : LaneIdx) : Prop := bs = [l.val]

/-- `blocktype ::= 0x40 ⇒ ε | t:valtype ⇒ t | x:s33 ⇒ x (if x ≥ 0)` -/
inductive BBlockType : Bytes → BlockType → Prop
  | empty : BBlockType [0x40] .Empty
  | val {bs : Bytes} {t : ValType} : BValType bs t → BBlockType bs (.T t)
  | idx {bs : Bytes} {x : UInt32} : BS 33 bs x.toNat → BBlockType bs (.I x)

/-- `catch` -/
inductive BCatch : Bytes → Catch → Prop
  | catch {b1 b2 : Bytes} {x : TagIdx} {l : LabelIdx} : BTagIdx b1 x → BLabelIdx b2 l →
      BCatch (0x00 :: (b1 ++ b2)) (.Catch x l)
  | catchRef {b1 b2 : Bytes} {x : TagIdx} {l : LabelIdx} : BTagIdx b1 x → BLabelIdx b2 l →
      BCatch (0x01 :: (b1 ++ b2)) (.CatchRef x l)
  | catchAll {bs : Bytes} {l : LabelIdx} : BLabelIdx bs l → BCatch (0x02 :: bs) (.CatchAll l)
  | catchAllRef {bs : Bytes} {l : LabelIdx} : BLabelIdx bs l → BCatch (0x03 :: bs) (.CatchAllRef l)

/-- `castop`: the nullability of the two reference types -/
inductive BCastop : Bytes → Bool × Bool → Prop
  | nn : BCastop [0x00] (false, false)
  | yn : BCastop [0x01] (true, false)
  | ny : BCastop [0x02] (false, true)
  | yy : BCastop [0x03] (true, true)

/-- The immediates of an instruction that does not contain other instructions, with its opcode:
`Leaf op imms i` says that `op` followed by the bytes `imms` is the instruction `i`. -/
inductive Leaf : Opcode → Bytes → Instr → Prop
  -- families of Spec/Opcodes.lean
  | plain {op : PlainOp} : Leaf (opcodeOfPlainOp op) [] (.plain op)
  | mem {op : MemOp} {b : Bytes} {m : Memarg} : BMemarg b m → Leaf (opcodeOfMemOp op) b (.mem op m)
  | memLane {op : MemLaneOp} {b1 b2 : Bytes} {m : Memarg} {l : LaneIdx} : BMemarg b1 m →
      BLaneIdx b2 l → Leaf (opcodeOfMemLaneOp op) (b1 ++ b2) (.memLane op m l)
  | lane {op : LaneOp} {b : Bytes} {l : LaneIdx} : BLaneIdx b l →
      Leaf (opcodeOfLaneOp op) b (.lane op l)
  -- control
  | throw {b : Bytes} {x : TagIdx} : BTagIdx b x → Leaf (.byte 0x08) b (.Throw x)
  | br {b : Bytes} {l : LabelIdx} : BLabelIdx b l → Leaf (.byte 0x0C) b (.Br l)
  | brIf {b : Bytes} {l : LabelIdx} : BLabelIdx b l → Leaf (.byte 0x0D) b (.BrIf l)
  | brTable {b1 b2 : Bytes} {ls : List LabelIdx} {l : LabelIdx} : BList BLabelIdx b1 ls →
      BLabelIdx b2 l → Leaf (.byte 0x0E) (b1 ++ b2) (.BrTable ls l)
  | call {b : Bytes} {x : FuncIdx} : BFuncIdx b x → Leaf (.byte 0x10) b (.Call x)
  | callIndirect {b1 b2 : Bytes} {x : TableIdx} {y : TypeIdx} : BTypeIdx b1 y → BTableIdx b2 x →
      Leaf (.byte 0x11) (b1 ++ b2) (.CallIndirect x y)
  | returnCall {b : Bytes} {x : FuncIdx} : BFuncIdx b x → Leaf (.byte 0x12) b (.ReturnCall x)
  | returnCallIndirect {b1 b2 : Bytes} {x : TableIdx} {y : TypeIdx} : BTypeIdx b1 y →
      BTableIdx b2 x → Leaf (.byte 0x13) (b1 ++ b2) (.ReturnCallIndirect x y)
  | callRef {b : Bytes} {x : TypeIdx} : BTypeIdx b x → Leaf (.byte 0x14) b (.CallRef x)
  | returnCallRef {b : Bytes} {x : TypeIdx} : BTypeIdx b x → Leaf (.byte 0x15) b (.ReturnCallRef x)
  | brOnNull {b : Bytes} {l : LabelIdx} : BLabelIdx b l → Leaf (.byte 0xD5) b (.BrOnNull l)
  | brOnNonNull {b : Bytes} {l : LabelIdx} : BLabelIdx b l → Leaf (.byte 0xD6) b (.BrOnNonNull l)
  | brOnCast {b0 b1 b2 b3 : Bytes} {n1 n2 : Bool} {l : LabelIdx} {ht1 ht2 : HeapType} :
      BCastop b0 (n1, n2) → BLabelIdx b1 l → BHeapType b2 ht1 → BHeapType b3 ht2 →
      Leaf (.fb 24) (b0 ++ (b1 ++ (b2 ++ b3))) (.BrOnCast l ⟨n1, ht1⟩ ⟨n2, ht2⟩)
  | brOnCastFail {b0 b1 b2 b3 : Bytes} {n1 n2 : Bool} {l : LabelIdx} {ht1 ht2 : HeapType} :
      BCastop b0 (n1, n2) → BLabelIdx b1 l → BHeapType b2 ht1 → BHeapType b3 ht2 →
      Leaf (.fb 25) (b0 ++ (b1 ++ (b2 ++ b3))) (.BrOnCastFail l ⟨n1, ht1⟩ ⟨n2, ht2⟩)
  -- reference
  | refNull {b : Bytes} {ht : HeapType} : BHeapType b ht → Leaf (.byte 0xD0) b (.RefNull ht)
  | refFunc {b : Bytes} {x : FuncIdx} : BFuncIdx b x → Leaf (.byte 0xD2) b (.RefFunc x)
  | refTest {b : Bytes} {ht : HeapType} : BHeapType b ht → Leaf (.fb 20) b (.RefTest ⟨false, ht⟩)
  | refTestNull {b : Bytes} {ht : HeapType} : BHeapType b ht → Leaf (.fb 21) b (.RefTest ⟨true, ht⟩)
  | refCast {b : Bytes} {ht : HeapType} : BHeapType b ht → Leaf (.fb 22) b (.RefCast ⟨false, ht⟩)
  | refCastNull {b : Bytes} {ht : HeapType} : BHeapType b ht → Leaf (.fb 23) b (.RefCast ⟨true, ht⟩)
  -- aggregate
  | structNew {b : Bytes} {x : TypeIdx} : BTypeIdx b x → Leaf (.fb 0) b (.StructNew x)
  | structNewDefault {b : Bytes} {x : TypeIdx} : BTypeIdx b x → Leaf (.fb 1) b (.StructNewDefault x)
  | structGet {b1 b2 : Bytes} {x : TypeIdx} {i : UInt32} : BTypeIdx b1 x → BU32 b2 i →
      Leaf (.fb 2) (b1 ++ b2) (.StructGet x i)
  | structGetS {b1 b2 : Bytes} {x : TypeIdx} {i : UInt32} : BTypeIdx b1 x → BU32 b2 i →
      Leaf (.fb 3) (b1 ++ b2) (.StructGetS x i)
  | structGetU {b1 b2 : Bytes} {x : TypeIdx} {i : UInt32} : BTypeIdx b1 x → BU32 b2 i →
      Leaf (.fb 4) (b1 ++ b2) (.StructGetU x i)
  | structSet {b1 b2 : Bytes} {x : TypeIdx} {i : UInt32} : BTypeIdx b1 x → BU32 b2 i →
      Leaf (.fb 5) (b1 ++ b2) (.StructSet x i)
  | arrayNew {b : Bytes} {x : TypeIdx} : BTypeIdx b x → Leaf (.fb 6) b (.ArrayNew x)
  | arrayNewDefault {b : Bytes} {x : TypeIdx} : BTypeIdx b x → Leaf (.fb 7) b (.ArrayNewDefault x)
  | arrayNewFixed {b1 b2 : Bytes} {x : TypeIdx} {n : UInt32} : BTypeIdx b1 x → BU32 b2 n →
      Leaf (.fb 8) (b1 ++ b2) (.ArrayNewFixed x n)
  | arrayNewData {b1 b2 : Bytes} {x : TypeIdx} {y : DataIdx} : BTypeIdx b1 x → BDataIdx b2 y →
      Leaf (.fb 9) (b1 ++ b2) (.ArrayNewData x y)
  | arrayNewElem {b1 b2 : Bytes} {x : TypeIdx} {y : ElemIdx} : BTypeIdx b1 x → BElemIdx b2 y →
      Leaf (.fb 10) (b1 ++ b2) (.ArrayNewElem x y)
  | arrayGet {b : Bytes} {x : TypeIdx} : BTypeIdx b x → Leaf (.fb 11) b (.ArrayGet x)
  | arrayGetS {b : Bytes} {x : TypeIdx} : BTypeIdx b x → Leaf (.fb 12) b (.ArrayGetS x)
  | arrayGetU {b : Bytes} {x : TypeIdx} : BTypeIdx b x → Leaf (.fb 13) b (.ArrayGetU x)
  | arraySet {b : Bytes} {x : TypeIdx} : BTypeIdx b x → Leaf (.fb 14) b (.ArraySet x)
  | arrayFill {b : Bytes} {x : TypeIdx} : BTypeIdx b x → Leaf (.fb 16) b (.ArrayFill x)
  | arrayCopy {b1 b2 : Bytes} {x1 x2 : TypeIdx} : BTypeIdx b1 x1 → BTypeIdx b2 x2 →
      Leaf (.fb 17) (b1 ++ b2) (.ArrayCopy x1 x2)
  | arrayInitData {b1 b2 : Bytes} {x : TypeIdx} {y : DataIdx} : BTypeIdx b1 x → BDataIdx b2 y →
      Leaf (.fb 18) (b1 ++ b2) (.ArrayInitData x y)
  | arrayInitElem {b1 b2 : Bytes} {x : TypeIdx} {y : ElemIdx} : BTypeIdx b1 x → BElemIdx b2 y →
      Leaf (.fb 19) (b1 ++ b2) (.ArrayInitElem x y)
  -- parametric
  | select : Leaf (.byte 0x1B) [] (.Select none)
  | selectT {b : Bytes} {ts : List ValType} : BList BValType b ts →
      Leaf (.byte 0x1C) b (.Select (some ts))
  -- variable
  | localGet {b : Bytes} {x : LocalIdx} : BLocalIdx b x → Leaf (.byte 0x20) b (.LocalGet x)
  | localSet {b : Bytes} {x : LocalIdx} : BLocalIdx b x → Leaf (.byte 0x21) b (.LocalSet x)
  | localTee {b : Bytes} {x : LocalIdx} : BLocalIdx b x → Leaf (.byte 0x22) b (.LocalTee x)
  | globalGet {b : Bytes} {x : GlobalIdx} : BGlobalIdx b x → Leaf (.byte 0x23) b (.GlobalGet x)
  | globalSet {b : Bytes} {x : GlobalIdx} : BGlobalIdx b x → Leaf (.byte 0x24) b (.GlobalSet x)
  -- table
  | tableGet {b : Bytes} {x : TableIdx} : BTableIdx b x → Leaf (.byte 0x25) b (.TableGet x)
  | tableSet {b : Bytes} {x : TableIdx} : BTableIdx b x → Leaf (.byte 0x26) b (.TableSet x)
  | tableInit {b1 b2 : Bytes} {x : TableIdx} {y : ElemIdx} : BElemIdx b1 y → BTableIdx b2 x →
      Leaf (.fc 12) (b1 ++ b2) (.TableInit x y)
  | elemDrop {b : Bytes} {x : ElemIdx} : BElemIdx b x → Leaf (.fc 13) b (.ElemDrop x)
  | tableCopy {b1 b2 : Bytes} {x1 x2 : TableIdx} : BTableIdx b1 x1 → BTableIdx b2 x2 →
      Leaf (.fc 14) (b1 ++ b2) (.TableCopy x1 x2)
  | tableGrow {b : Bytes} {x : TableIdx} : BTableIdx b x → Leaf (.fc 15) b (.TableGrow x)
  | tableSize {b : Bytes} {x : TableIdx} : BTableIdx b x → Leaf (.fc 16) b (.TableSize x)
  | tableFill {b : Bytes} {x : TableIdx} : BTableIdx b x → Leaf (.fc 17) b (.TableFill x)
  -- memory
  | memorySize {b : Bytes} {x : MemIdx} : BMemIdx b x → Leaf (.byte 0x3F) b (.MemorySize x)
  | memoryGrow {b : Bytes} {x : MemIdx} : BMemIdx b x → Leaf (.byte 0x40) b (.MemoryGrow x)
  | memoryInit {b1 b2 : Bytes} {x : MemIdx} {y : DataIdx} : BDataIdx b1 y → BMemIdx b2 x →
      Leaf (.fc 8) (b1 ++ b2) (.MemoryInit x y)
  | dataDrop {b : Bytes} {x : DataIdx} : BDataIdx b x → Leaf (.fc 9) b (.DataDrop x)
  | memoryCopy {b1 b2 : Bytes} {x1 x2 : MemIdx} : BMemIdx b1 x1 → BMemIdx b2 x2 →
      Leaf (.fc 10) (b1 ++ b2) (.MemoryCopy x1 x2)
  | memoryFill {b : Bytes} {x : MemIdx} : BMemIdx b x → Leaf (.fc 11) b (.MemoryFill x)
  -- numeric
  | i32Const {b : Bytes} {v : Int32} : BI32 b v → Leaf (.byte 0x41) b (.I32Const v)
  | i64Const {b : Bytes} {v : Int64} : BI64 b v → Leaf (.byte 0x42) b (.I64Const v)
  | f32Const {b : Bytes} {v : UInt32} : BF32 b v → Leaf (.byte 0x43) b (.F32Const v)
  | f64Const {b : Bytes} {v : UInt64} : BF64 b v → Leaf (.byte 0x44) b (.F64Const v)
  -- vector
  | v128Const {v : Bytes16} : Leaf (.fd 12) v.val (.V128Const v)
  | i8x16Shuffle {v : Bytes16} : Leaf (.fd 13) v.val (.I8x16Shuffle v)

mutual
/-- `instr`.  (`0x0B` is `end`, `0x05` is `else`.) -/
inductive BInstr : Bytes → Instr → Prop
  | leaf {b imms : Bytes} {op : Opcode} {i : Instr} : BOpcode b op → Leaf op imms i →
      BInstr (b ++ imms) i
  | block {b1 b2 : Bytes} {bt : BlockType} {is : List Instr} : BBlockType b1 bt → BInstrs b2 is →
      BInstr (0x02 :: (b1 ++ (b2 ++ [0x0B]))) (.Block bt is)
  | loop {b1 b2 : Bytes} {bt : BlockType} {is : List Instr} : BBlockType b1 bt → BInstrs b2 is →
      BInstr (0x03 :: (b1 ++ (b2 ++ [0x0B]))) (.Loop bt is)
  | if {b1 b2 : Bytes} {bt : BlockType} {is : List Instr} : BBlockType b1 bt → BInstrs b2 is →
      BInstr (0x04 :: (b1 ++ (b2 ++ [0x0B]))) (.If bt is none)
  | ifElse {b1 b2 b3 : Bytes} {bt : BlockType} {is1 is2 : List Instr} : BBlockType b1 bt →
      BInstrs b2 is1 → BInstrs b3 is2 →
      BInstr (0x04 :: (b1 ++ ((b2 ++ [0x05]) ++ (b3 ++ [0x0B])))) (.If bt is1 (some is2))
  | tryTable {b1 b2 b3 : Bytes} {bt : BlockType} {cs : List Catch} {is : List Instr} :
      BBlockType b1 bt → BList BCatch b2 cs → BInstrs b3 is →
      BInstr (0x1F :: (b1 ++ (b2 ++ (b3 ++ [0x0B])))) (.TryTable bt cs is)
/-- `instr*` -/
inductive BInstrs : Bytes → List Instr → Prop
  | nil : BInstrs [] []
  | cons {b bs : Bytes} {i : Instr} {is : List Instr} : BInstr b i → BInstrs bs is →
      BInstrs (b ++ bs) (i :: is)
end

/-- `expr ::= (in:instr)* 0x0B` -/
inductive BExpr : Bytes → Expr → Prop
  | mk {bs : Bytes} {is : List Instr} : BInstrs bs is → BExpr (bs ++ [0x0B]) is

/-- The instruction `i` contains a data index, itself or in a nested block (free data indices,
5.5.16). -/
inductive UsesData : Instr → Prop
  | memoryInit {x : MemIdx} {y : DataIdx} : UsesData (.MemoryInit x y)
  | dataDrop {x : DataIdx} : UsesData (.DataDrop x)
  | arrayNewData {x : TypeIdx} {y : DataIdx} : UsesData (.ArrayNewData x y)
  | arrayInitData {x : TypeIdx} {y : DataIdx} : UsesData (.ArrayInitData x y)
  | block {bt : BlockType} {is : List Instr} {i : Instr} : i ∈ is → UsesData i → UsesData (.Block bt is)
  | loop {bt : BlockType} {is : List Instr} {i : Instr} : i ∈ is → UsesData i → UsesData (.Loop bt is)
  | ifThen {bt : BlockType} {is : List Instr} {e : Option (List Instr)} {i : Instr} : i ∈ is →
      UsesData i → UsesData (.If bt is e)
  | ifElse {bt : BlockType} {is1 is2 : List Instr} {i : Instr} : i ∈ is2 → UsesData i →
      UsesData (.If bt is1 (some is2))
  | tryTable {bt : BlockType} {cs : List Catch} {is : List Instr} {i : Instr} : i ∈ is → UsesData i →
      UsesData (.TryTable bt cs is)

end Wadec.Spec
