import Verif.Spec.Encode

/-! The shortest way of writing down each value (C73).  Where the format has one way only, this is the canonical encoder of
Spec/Encode; where it has several, the shortest of them.  It belongs to the specification (the code base has no encoder); that it is
the shortest is a theorem about the grammar (Props/Shortest.lean). -/

namespace Wadec.Spec

/-- A shortest of some byte strings. -/
def shortest : List Bytes → Bytes
  | [] => []
  | [b] => b
  | b :: c :: l => if b.length ≤ (shortest (c :: l)).length then b else shortest (c :: l)

/-! ### Types -/

/-- Nullable references to abstract heap types have a one-byte form. -/
def shRefType : RefType → Bytes
  | ⟨true, .Ht t⟩ => [encAbsHeapType t]
  | t => encRefType t

def shValType : ValType → Bytes
  | .Ref t => shRefType t
  | t => encValType t

def shGlobalType (t : GlobalType) : Bytes := shValType t.valtype ++ [encMut t.mutability]

def shStorageType : StorageType → Bytes
  | .ValType t => shValType t
  | t => encStorageType t

def shFieldType (t : FieldType) : Bytes := shStorageType t.storage ++ [encMut t.mutability]

def shCompType : CompType → Bytes
  | .Array ft => 0x5E :: shFieldType ft
  | .Struct fts => 0x5F :: encList shFieldType fts
  | .Func t1 t2 => 0x60 :: (encList shValType t1 ++ encList shValType t2)

/-- A final type without supertypes is written without `sub`. -/
def shSubType : SubType → Bytes
  | ⟨true, [], ct⟩ => shCompType ct
  | t => (if t.is_final then 0x4F else 0x50) :: (encList encTypeIdx t.supertypes ++ shCompType t.comptype)

/-- A group of one is written without `rec`. -/
def shRecType : RecType → Bytes
  | ⟨[t]⟩ => shSubType t
  | t => 0x4E :: encList shSubType t.subtypes

def shTableType (t : TableType) : Bytes := shRefType t.reftype ++ encLimits t.limits

def shExternType : ExternType → Bytes
  | .Table t => 0x01 :: shTableType t
  | .Global t => 0x03 :: shGlobalType t
  | t => encExternType t

/-! ### Instructions -/

/-- Memory 0 need not be named. -/
def shMemarg (m : Memarg) : Bytes :=
  if m.mem_idx.val = 0 then encU m.align.toNat ++ encU m.offset.toNat
  else encMemarg m

def shBlockType : BlockType → Bytes
  | .T t => shValType t
  | t => encBlockType t

def shLeaf : Instr → Option (Opcode × Bytes)
  | .mem op m => some (opcodeOfMemOp op, shMemarg m)
  | .memLane op m l => some (opcodeOfMemLaneOp op, shMemarg m ++ [l.val])
  | .Select (some ts) => some (.byte 0x1C, encList shValType ts)
  | i => encLeaf i

mutual
def shInstr : Instr → Bytes
  | .Block bt is => 0x02 :: (shBlockType bt ++ (shInstrs is ++ [0x0B]))
  | .Loop bt is => 0x03 :: (shBlockType bt ++ (shInstrs is ++ [0x0B]))
  | .If bt is els => 0x04 :: (shBlockType bt ++ (shInstrs is ++ shElse els))
  | .TryTable bt cs is => 0x1F :: (shBlockType bt ++ (encList encCatch cs ++ (shInstrs is ++ [0x0B])))
  | i => match shLeaf i with
    | some (op, imms) => encOpcode op ++ imms
    | none => []
def shInstrs : List Instr → Bytes
  | [] => []
  | i :: is => shInstr i ++ shInstrs is
def shElse : Option (List Instr) → Bytes
  | none => [0x0B]
  | some is => 0x05 :: (shInstrs is ++ [0x0B])
end

def shExpr (e : Expr) : Bytes := shInstrs e ++ [0x0B]

/-! ### Entries of sections -/

def shImport (i : Import) : Bytes :=
  encName i.module_name ++ (encName i.item_name ++ shExternType i.extern_type)

/-- A table that is initialised with null is written as its type. -/
def shTable (t : Table) : Bytes :=
  shortest ((match t.init with
    | [.RefNull ht] => if ht = t.type.reftype.ht then [shTableType t.type] else []
    | _ => []) ++ [0x40 :: 0x00 :: (shTableType t.type ++ shExpr t.init)])

def shGlobal (g : Global) : Bytes := shGlobalType g.type ++ shExpr g.init

/-- The function indices, if all these expressions are `ref.func`. -/
def funcsOf : List Expr → Option (List FuncIdx)
  | [] => some []
  | [.RefFunc y] :: es => (funcsOf es).map (y :: ·)
  | _ => none

/-- The forms of an element segment with initialiser expressions. -/
def exprForms (e : Elem) : List Bytes :=
  match e.mode with
  | .Passive => [encU 5 ++ (shRefType e.type ++ encList shExpr e.init)]
  | .Declare => [encU 7 ++ (shRefType e.type ++ encList shExpr e.init)]
  | .Active x o => [encU 6 ++ (encU x.val.toNat ++ (shExpr o ++ (shRefType e.type ++ encList shExpr e.init)))] ++
      (if x.val = 0 ∧ e.type = ⟨true, .Ht .Func⟩ then [encU 4 ++ (shExpr o ++ encList shExpr e.init)] else [])

/-- The forms of an element segment with function indices `ys`. -/
def idxForms (e : Elem) (ys : List FuncIdx) : List Bytes :=
  let l := encList (fun y : FuncIdx => encU y.val.toNat) ys
  if e.type = ⟨true, .Ht .Func⟩ then
    match e.mode with
    | .Passive => [encU 1 ++ (0x00 :: l)]
    | .Declare => [encU 3 ++ (0x00 :: l)]
    | .Active x o => [encU 2 ++ (encU x.val.toNat ++ (shExpr o ++ (0x00 :: l)))]
  else if e.type = ⟨false, .Ht .Func⟩ then
    match e.mode with
    | .Active x o => if x.val = 0 then [encU 0 ++ (shExpr o ++ l)] else []
    | _ => []
  else []

/-- The shortest form of an element segment. -/
def shElem (e : Elem) : Bytes :=
  shortest ((match funcsOf e.init with | some ys => idxForms e ys | none => []) ++ exprForms e)

/-- The initial bytes of memory 0 need not name it. -/
def shData (d : Data) : Bytes :=
  match d.mode with
  | .Passive => encU 1 ++ encBytes d.init
  | .Active x o =>
    if x.val = 0 then encU 0 ++ (shExpr o ++ encBytes d.init)
    else encU 2 ++ (encU x.val.toNat ++ (shExpr o ++ encBytes d.init))

def shRun (r : UInt32 × ValType) : Bytes := encU r.1.toNat ++ shValType r.2

def shFuncBody (c : CodeEntry) : Bytes := encList shRun (runsOf c.locals) ++ shExpr c.body

def shCode (c : CodeEntry) : Bytes := encU (shFuncBody c).length ++ shFuncBody c

def shContents : Section → Bytes
  | .custom c => encCustom c
  | .type l => encList shRecType l
  | .import l => encList shImport l
  | .function l => encList encTypeIdx l
  | .table l => encList shTable l
  | .memory l => encList encMemType l
  | .tag l => encList encTagType l
  | .global l => encList shGlobal l
  | .export l => encList encExport l
  | .start x => encU x.val.toNat
  | .element l => encList shElem l
  | .dataCount n => encU n.toNat
  | .code l => encList shCode l
  | .data l => encList shData l

def shSection (s : Section) : Bytes := sectionId s.kind :: (encU (shContents s).length ++ shContents s)

/-! ### Modules -/

/-- Custom sections first, no empty sections, everything in its shortest form. -/
def shModule (m : Module) : Bytes := preamble ++ (sectionsOf m).flatMap shSection

/-- The sections as the shortest encoding has them. -/
def shHeaders (m : Module) : List SectionHeader :=
  (sectionsOf m).map fun s => ⟨s.kind, UInt32.ofNat (shContents s).length⟩

/-- The modules have the same contents; the record of sections and their sizes may differ. -/
def SameContents (m m' : Module) : Prop :=
  m' = { m with parsed_section_kinds := m'.parsed_section_kinds, section_headers := m'.section_headers }

end Wadec.Spec
