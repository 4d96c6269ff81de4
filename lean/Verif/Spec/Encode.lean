import Verif.Spec.Module

/-! A canonical encoder: one way of writing down each value, with shortest integers.  It belongs to
the specification of C36 (the code base has no encoder); what it produces is related to the grammar
in Proof/Encode.lean. -/

namespace Wadec.Spec

/-! ### Integers -/

/-- Shortest unsigned LEB128. -/
def encU (n : Nat) : Bytes :=
  if n < 128 then [UInt8.ofNat n] else UInt8.ofNat (128 + n % 128) :: encU (n / 128)
termination_by n

/-- Shortest signed LEB128. -/
def encS (n : Int) : Bytes :=
  if -64 ≤ n ∧ n < 64 then [UInt8.ofNat (n % 128).toNat]
  else UInt8.ofNat (128 + (n % 128).toNat) :: encS (n / 128)
termination_by n.natAbs
decreasing_by omega

/-- `list(B)` -/
def encList {α : Type} (f : α → Bytes) (xs : List α) : Bytes := encU xs.length ++ xs.flatMap f

def encBytes (bs : Bytes) : Bytes := encU bs.length ++ bs
def encName (s : Str) : Bytes := encBytes s.bytes

/-! ### Types -/

def encAbsHeapType : AbsHeapType → UInt8
  | .NoExn => 0x74 | .NoFunc => 0x73 | .NoExtern => 0x72 | .None => 0x71 | .Func => 0x70
  | .Extern => 0x6F | .Any => 0x6E | .Eq => 0x6D | .I31 => 0x6C | .Struct => 0x6B | .Array => 0x6A
  | .Exn => 0x69

def encHeapType : HeapType → Bytes
  | .Ht t => [encAbsHeapType t]
  | .TypeIdx x => encS x.toNat

def encRefType (t : RefType) : Bytes :=
  (if t.nullable then 0x63 else 0x64) :: encHeapType t.ht

def encValType : ValType → Bytes
  | .Num .Int32 => [0x7F] | .Num .Int64 => [0x7E] | .Num .Float32 => [0x7D]
  | .Num .Float64 => [0x7C] | .Vec .V128 => [0x7B] | .Ref t => encRefType t

def encMut : Mut → UInt8
  | .Const => 0x00 | .Var => 0x01

def encGlobalType (t : GlobalType) : Bytes := encValType t.valtype ++ [encMut t.mutability]

def encStorageType : StorageType → Bytes
  | .PackType .I16 => [0x77] | .PackType .I8 => [0x78] | .ValType t => encValType t

def encFieldType (t : FieldType) : Bytes := encStorageType t.storage ++ [encMut t.mutability]

def encCompType : CompType → Bytes
  | .Array ft => 0x5E :: encFieldType ft
  | .Struct fts => 0x5F :: encList encFieldType fts
  | .Func t1 t2 => 0x60 :: (encList encValType t1 ++ encList encValType t2)

def encTypeIdx (x : TypeIdx) : Bytes := encU x.val.toNat

def encSubType (t : SubType) : Bytes :=
  (if t.is_final then 0x4F else 0x50) :: (encList encTypeIdx t.supertypes ++ encCompType t.comptype)

def encRecType (t : RecType) : Bytes := 0x4E :: encList encSubType t.subtypes

def encLimits (l : Limits) : Bytes :=
  match l.address_type, l.max with
  | .I32, none => 0x00 :: encU l.min.toNat
  | .I32, some m => 0x01 :: (encU l.min.toNat ++ encU m.toNat)
  | .I64, none => 0x04 :: encU l.min.toNat
  | .I64, some m => 0x05 :: (encU l.min.toNat ++ encU m.toNat)

def encTableType (t : TableType) : Bytes := encRefType t.reftype ++ encLimits t.limits
def encMemType (t : MemType) : Bytes := encLimits t.limits
def encTagType (t : TagType) : Bytes := 0x00 :: encU t.idx.val.toNat

def encExternType : ExternType → Bytes
  | .Func x => 0x00 :: encU x.val.toNat
  | .Table t => 0x01 :: encTableType t
  | .Mem t => 0x02 :: encMemType t
  | .Global t => 0x03 :: encGlobalType t
  | .Tag t => 0x04 :: encTagType t

/-! ### Instructions -/

def encOpcode : Opcode → Bytes
  | .byte b => [b]
  | .fb n => 0xFB :: encU n
  | .fc n => 0xFC :: encU n
  | .fd n => 0xFD :: encU n

def encMemarg (m : Memarg) : Bytes :=
  encU (m.align.toNat + 64) ++ (encU m.mem_idx.val.toNat ++ encU m.offset.toNat)

def encBlockType : BlockType → Bytes
  | .Empty => [0x40]
  | .T t => encValType t
  | .I x => encS x.toNat

def encCatch : Catch → Bytes
  | .Catch x l => 0x00 :: (encU x.val.toNat ++ encU l.val.toNat)
  | .CatchRef x l => 0x01 :: (encU x.val.toNat ++ encU l.val.toNat)
  | .CatchAll l => 0x02 :: encU l.val.toNat
  | .CatchAllRef l => 0x03 :: encU l.val.toNat

def encCastop (n1 n2 : Bool) : UInt8 :=
  match n1, n2 with
  | false, false => 0x00 | true, false => 0x01 | false, true => 0x02 | true, true => 0x03

def encLabelIdx (l : LabelIdx) : Bytes := encU l.val.toNat

/-- Opcode and immediates of the instructions that contain no instructions. -/
def encLeaf : Instr → Option (Opcode × Bytes)
  | .plain op => some (opcodeOfPlainOp op, [])
  | .mem op m => some (opcodeOfMemOp op, encMemarg m)
  | .memLane op m l => some (opcodeOfMemLaneOp op, encMemarg m ++ [l.val])
  | .lane op l => some (opcodeOfLaneOp op, [l.val])
  | .Throw x => some (.byte 0x08, encU x.val.toNat)
  | .Br l => some (.byte 0x0C, encU l.val.toNat)
  | .BrIf l => some (.byte 0x0D, encU l.val.toNat)
  | .BrTable ls l => some (.byte 0x0E, encList encLabelIdx ls ++ encU l.val.toNat)
  | .Call x => some (.byte 0x10, encU x.val.toNat)
  | .CallIndirect x y => some (.byte 0x11, encU y.val.toNat ++ encU x.val.toNat)
  | .ReturnCall x => some (.byte 0x12, encU x.val.toNat)
  | .ReturnCallIndirect x y => some (.byte 0x13, encU y.val.toNat ++ encU x.val.toNat)
  | .CallRef x => some (.byte 0x14, encU x.val.toNat)
  | .ReturnCallRef x => some (.byte 0x15, encU x.val.toNat)
  | .BrOnNull l => some (.byte 0xD5, encU l.val.toNat)
  | .BrOnNonNull l => some (.byte 0xD6, encU l.val.toNat)
  | .BrOnCast l rt1 rt2 => some (.fb 24, [encCastop rt1.nullable rt2.nullable] ++
      (encU l.val.toNat ++ (encHeapType rt1.ht ++ encHeapType rt2.ht)))
  | .BrOnCastFail l rt1 rt2 => some (.fb 25, [encCastop rt1.nullable rt2.nullable] ++
      (encU l.val.toNat ++ (encHeapType rt1.ht ++ encHeapType rt2.ht)))
  | .RefNull ht => some (.byte 0xD0, encHeapType ht)
  | .RefFunc x => some (.byte 0xD2, encU x.val.toNat)
  | .RefTest rt => some (.fb (if rt.nullable then 21 else 20), encHeapType rt.ht)
  | .RefCast rt => some (.fb (if rt.nullable then 23 else 22), encHeapType rt.ht)
  | .StructNew x => some (.fb 0, encU x.val.toNat)
  | .StructNewDefault x => some (.fb 1, encU x.val.toNat)
  | .StructGet x i => some (.fb 2, encU x.val.toNat ++ encU i.toNat)
  | .StructGetS x i => some (.fb 3, encU x.val.toNat ++ encU i.toNat)
  | .StructGetU x i => some (.fb 4, encU x.val.toNat ++ encU i.toNat)
  | .StructSet x i => some (.fb 5, encU x.val.toNat ++ encU i.toNat)
  | .ArrayNew x => some (.fb 6, encU x.val.toNat)
  | .ArrayNewDefault x => some (.fb 7, encU x.val.toNat)
  | .ArrayNewFixed x n => some (.fb 8, encU x.val.toNat ++ encU n.toNat)
  | .ArrayNewData x y => some (.fb 9, encU x.val.toNat ++ encU y.val.toNat)
  | .ArrayNewElem x y => some (.fb 10, encU x.val.toNat ++ encU y.val.toNat)
  | .ArrayGet x => some (.fb 11, encU x.val.toNat)
  | .ArrayGetS x => some (.fb 12, encU x.val.toNat)
  | .ArrayGetU x => some (.fb 13, encU x.val.toNat)
  | .ArraySet x => some (.fb 14, encU x.val.toNat)
  | .ArrayFill x => some (.fb 16, encU x.val.toNat)
  | .ArrayCopy x y => some (.fb 17, encU x.val.toNat ++ encU y.val.toNat)
  | .ArrayInitData x y => some (.fb 18, encU x.val.toNat ++ encU y.val.toNat)
  | .ArrayInitElem x y => some (.fb 19, encU x.val.toNat ++ encU y.val.toNat)
  | .Select none => some (.byte 0x1B, [])
  | .Select (some ts) => some (.byte 0x1C, encList encValType ts)
  | .LocalGet x => some (.byte 0x20, encU x.val.toNat)
  | .LocalSet x => some (.byte 0x21, encU x.val.toNat)
  | .LocalTee x => some (.byte 0x22, encU x.val.toNat)
  | .GlobalGet x => some (.byte 0x23, encU x.val.toNat)
  | .GlobalSet x => some (.byte 0x24, encU x.val.toNat)
  | .TableGet x => some (.byte 0x25, encU x.val.toNat)
  | .TableSet x => some (.byte 0x26, encU x.val.toNat)
  | .TableInit x y => some (.fc 12, encU y.val.toNat ++ encU x.val.toNat)
  | .ElemDrop x => some (.fc 13, encU x.val.toNat)
  | .TableCopy x y => some (.fc 14, encU x.val.toNat ++ encU y.val.toNat)
  | .TableGrow x => some (.fc 15, encU x.val.toNat)
  | .TableSize x => some (.fc 16, encU x.val.toNat)
  | .TableFill x => some (.fc 17, encU x.val.toNat)
  | .MemorySize x => some (.byte 0x3F, encU x.val.toNat)
  | .MemoryGrow x => some (.byte 0x40, encU x.val.toNat)
  | .MemoryInit x y => some (.fc 8, encU y.val.toNat ++ encU x.val.toNat)
  | .DataDrop x => some (.fc 9, encU x.val.toNat)
  | .MemoryCopy x y => some (.fc 10, encU x.val.toNat ++ encU y.val.toNat)
  | .MemoryFill x => some (.fc 11, encU x.val.toNat)
  | .I32Const v => some (.byte 0x41, encS v.toInt)
  | .I64Const v => some (.byte 0x42, encS v.toInt)
  | .F32Const v => some (.byte 0x43, leBytes 4 v.toNat)
  | .F64Const v => some (.byte 0x44, leBytes 8 v.toNat)
  | .V128Const v => some (.fd 12, v.val)
  | .I8x16Shuffle v => some (.fd 13, v.val)
  | .Block _ _ | .Loop _ _ | .If _ _ _ | .TryTable _ _ _ => none

mutual
def encInstr : Instr → Bytes
  | .Block bt is => 0x02 :: (encBlockType bt ++ (encInstrs is ++ [0x0B]))
  | .Loop bt is => 0x03 :: (encBlockType bt ++ (encInstrs is ++ [0x0B]))
  | .If bt is els => 0x04 :: (encBlockType bt ++ (encInstrs is ++ encElse els))
  | .TryTable bt cs is => 0x1F :: (encBlockType bt ++ (encList encCatch cs ++ (encInstrs is ++ [0x0B])))
  | i => match encLeaf i with
    | some (op, imms) => encOpcode op ++ imms
    | none => []
def encInstrs : List Instr → Bytes
  | [] => []
  | i :: is => encInstr i ++ encInstrs is
def encElse : Option (List Instr) → Bytes
  | none => [0x0B]
  | some is => 0x05 :: (encInstrs is ++ [0x0B])
end

def encExpr (e : Expr) : Bytes := encInstrs e ++ [0x0B]

/-- Every memory argument in the instruction has an alignment exponent below 64; anything else has
no encoding. -/
inductive Aligned : Instr → Prop
  | mem {op : MemOp} {m : Memarg} : m.align.toNat < 64 → Aligned (.mem op m)
  | memLane {op : MemLaneOp} {m : Memarg} {l : LaneIdx} : m.align.toNat < 64 → Aligned (.memLane op m l)
  | leaf {i : Instr} : (∀ op m, i ≠ .mem op m) → (∀ op m l, i ≠ .memLane op m l) →
      encLeaf i ≠ none → Aligned i
  | block {bt : BlockType} {is : List Instr} : (∀ i ∈ is, Aligned i) → Aligned (.Block bt is)
  | loop {bt : BlockType} {is : List Instr} : (∀ i ∈ is, Aligned i) → Aligned (.Loop bt is)
  | if {bt : BlockType} {is : List Instr} : (∀ i ∈ is, Aligned i) → Aligned (.If bt is none)
  | ifElse {bt : BlockType} {is1 is2 : List Instr} : (∀ i ∈ is1, Aligned i) → (∀ i ∈ is2, Aligned i) →
      Aligned (.If bt is1 (some is2))
  | tryTable {bt : BlockType} {cs : List Catch} {is : List Instr} : (∀ i ∈ is, Aligned i) →
      Aligned (.TryTable bt cs is)

def AlignedExpr (e : Expr) : Prop := ∀ i ∈ e, Aligned i

/-! ### Entries of sections -/

def encImport (i : Import) : Bytes :=
  encName i.module_name ++ (encName i.item_name ++ encExternType i.extern_type)

def encExternIdx : ExternIdx → Bytes
  | .Func x => 0x00 :: encU x.val.toNat
  | .Table x => 0x01 :: encU x.val.toNat
  | .Mem x => 0x02 :: encU x.val.toNat
  | .Global x => 0x03 :: encU x.val.toNat
  | .Tag x => 0x04 :: encU x.val.toNat

def encExport (e : Export) : Bytes := encName e.name ++ encExternIdx e.externidx

def encTable (t : Table) : Bytes := 0x40 :: 0x00 :: (encTableType t.type ++ encExpr t.init)

def encGlobal (g : Global) : Bytes := encGlobalType g.type ++ encExpr g.init

def encElem (e : Elem) : Bytes :=
  match e.mode with
  | .Passive => encU 5 ++ (encRefType e.type ++ encList encExpr e.init)
  | .Active x o => encU 6 ++ (encU x.val.toNat ++ (encExpr o ++ (encRefType e.type ++
      encList encExpr e.init)))
  | .Declare => encU 7 ++ (encRefType e.type ++ encList encExpr e.init)

def encData (d : Data) : Bytes :=
  match d.mode with
  | .Passive => encU 1 ++ encBytes d.init
  | .Active x o => encU 2 ++ (encU x.val.toNat ++ (encExpr o ++ encBytes d.init))

/-- Runs of equal types. -/
def runsOf : List ValType → List (UInt32 × ValType)
  | [] => []
  | t :: ts =>
    match runsOf ts with
    | (n, t') :: rs => if t = t' then (n + 1, t') :: rs else (1, t) :: (n, t') :: rs
    | [] => [(1, t)]

def encRun (r : UInt32 × ValType) : Bytes := encU r.1.toNat ++ encValType r.2

def encFuncBody (c : CodeEntry) : Bytes := encList encRun (runsOf c.locals) ++ encExpr c.body

def encCode (c : CodeEntry) : Bytes := encU (encFuncBody c).length ++ encFuncBody c

def encCustom (c : CustomSection) : Bytes := encName c.name ++ c.contents

def encContents : Section → Bytes
  | .custom c => encCustom c
  | .type l => encList encRecType l
  | .import l => encList encImport l
  | .function l => encList encTypeIdx l
  | .table l => encList encTable l
  | .memory l => encList encMemType l
  | .tag l => encList encTagType l
  | .global l => encList encGlobal l
  | .export l => encList encExport l
  | .start x => encU x.val.toNat
  | .element l => encList encElem l
  | .dataCount n => encU n.toNat
  | .code l => encList encCode l
  | .data l => encList encData l

/-- What a value must satisfy to have an encoding at all (apart from its size). -/
def Encodable : Section → Prop
  | .custom c => ValidUtf8 c.name.bytes
  | .import l => ∀ i ∈ l, ValidUtf8 i.module_name.bytes ∧ ValidUtf8 i.item_name.bytes
  | .table l => ∀ t ∈ l, AlignedExpr t.init
  | .global l => ∀ g ∈ l, AlignedExpr g.init
  | .export l => ∀ e ∈ l, ValidUtf8 e.name.bytes
  | .element l => ∀ e ∈ l, (∀ x ∈ e.init, AlignedExpr x) ∧
      ∀ x o, e.mode = .Active x o → AlignedExpr o
  | .code l => ∀ c ∈ l, c.locals.length < 2 ^ 32 ∧ AlignedExpr c.body
  | .data l => ∀ d ∈ l, ∀ x o, d.mode = .Active x o → AlignedExpr o
  | _ => True

def encSection (s : Section) : Bytes :=
  sectionId s.kind :: (encU (encContents s).length ++ encContents s)

/-! ### Modules -/

/-- A section for a list, unless the list is empty. -/
def listSection {α : Type} (f : List α → Section) (l : List α) : List Section :=
  if l.isEmpty then [] else [f l]

/-- The sections of a module: the custom sections first, then the others in the prescribed order,
empty ones left out. -/
def sectionsOf (m : Module) : List Section :=
  m.custom_sections.map .custom ++ (listSection .type m.types ++ (listSection .import m.imports ++
  (listSection .function (m.funcs.map fun f => f.type) ++ (listSection .table m.tables ++
  (listSection .memory m.mems ++ (listSection .tag m.tags ++ (listSection .global m.globals ++
  (listSection .export m.exports ++ ((m.start.toList).map .start ++ (listSection .element m.elems ++
  ((m.data_count.toList).map .dataCount ++
  (listSection .code (m.funcs.map fun f => ⟨f.locals, f.body⟩) ++ listSection .data m.datas))))))))))))

def encModule (m : Module) : Bytes := preamble ++ (sectionsOf m).flatMap encSection

/-- The header list that describes the canonical encoding. -/
def headersOf (m : Module) : List SectionHeader :=
  (sectionsOf m).map fun s => ⟨s.kind, UInt32.ofNat (encContents s).length⟩

/-- Module values that can be written down: version 1, names in UTF-8, alignments and local counts
in range, every section shorter than 2^32 bytes, and the data count conditions of 5.5.17. -/
structure Writable (m : Module) : Prop where
  version : m.version = [0x01, 0x00, 0x00, 0x00]
  sections : ∀ s ∈ sectionsOf m, Encodable s ∧ (encContents s).length < 2 ^ 32
  dataCount : ∀ n, m.data_count = some n → m.datas.length = n.toNat
  dataIdx : (∃ f ∈ m.funcs, ∃ i ∈ f.body, UsesData i) → m.data_count ≠ none

end Wadec.Spec
