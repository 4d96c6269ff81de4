import Verif.Spec.Instr

/-! The binary format of sections and modules (WebAssembly 3.0, 5.5). -/

namespace Wadec.Spec

/-- `import ::= nm1:name nm2:name xt:externtype` -/
inductive BImport : Bytes → Import → Prop
  | mk {b1 b2 b3 : Bytes} {nm1 nm2 : Str} {xt : ExternType} : BName b1 nm1 → BName b2 nm2 →
      BExternType b3 xt → BImport (b1 ++ (b2 ++ b3)) ⟨nm1, nm2, xt⟩

/-- `externidx ::= 0x00 x:funcidx | 0x01 x:tableidx | 0x02 x:memidx | 0x03 x:globalidx | 0x04 x:tagidx` -/
inductive BExternIdx : Bytes → ExternIdx → Prop
  | func {b : Bytes} {x : FuncIdx} : BFuncIdx b x → BExternIdx (0x00 :: b) (.Func x)
  | table {b : Bytes} {x : TableIdx} : BTableIdx b x → BExternIdx (0x01 :: b) (.Table x)
  | mem {b : Bytes} {x : MemIdx} : BMemIdx b x → BExternIdx (0x02 :: b) (.Mem x)
  | global {b : Bytes} {x : GlobalIdx} : BGlobalIdx b x → BExternIdx (0x03 :: b) (.Global x)
  | tag {b : Bytes} {x : TagIdx} : BTagIdx b x → BExternIdx (0x04 :: b) (.Tag x)

/-- `export ::= nm:name xx:externidx` -/
inductive BExport : Bytes → Export → Prop
  | mk {b1 b2 : Bytes} {nm : Str} {xx : ExternIdx} : BName b1 nm → BExternIdx b2 xx →
      BExport (b1 ++ b2) ⟨nm, xx⟩

/-- `table ::= tt:tabletype ⇒ table tt (ref.null ht) (if tt = lim (ref null? ht))
| 0x40 0x00 tt:tabletype e:expr ⇒ table tt e` -/
inductive BTable : Bytes → Table → Prop
  | type {b : Bytes} {tt : TableType} : BTableType b tt → BTable b ⟨tt, [.RefNull tt.reftype.ht]⟩
  | init {b1 b2 : Bytes} {tt : TableType} {e : Expr} : BTableType b1 tt → BExpr b2 e →
      BTable (0x40 :: 0x00 :: (b1 ++ b2)) ⟨tt, e⟩

/-- `global ::= gt:globaltype e:expr` -/
inductive BGlobal : Bytes → Global → Prop
  | mk {b1 b2 : Bytes} {gt : GlobalType} {e : Expr} : BGlobalType b1 gt → BExpr b2 e →
      BGlobal (b1 ++ b2) ⟨gt, e⟩

/-- The initialiser expressions `(ref.func y)*` of an element segment given by function indices. -/
def refFuncs (ys : List FuncIdx) : List Expr := ys.map (fun y => [Instr.RefFunc y])

/-- `elem`; `elemkind ::= 0x00 ⇒ ref null func`.  The flag is a `u32`, in any of its encodings. -/
inductive BElem : Bytes → Elem → Prop
  | active0 {b0 b1 b2 : Bytes} {e : Expr} {ys : List FuncIdx} : BU 32 b0 0 → BExpr b1 e →
      BList BFuncIdx b2 ys →
      BElem (b0 ++ (b1 ++ b2)) ⟨⟨false, .Ht .Func⟩, refFuncs ys, .Active ⟨0⟩ e⟩
  | passive {b0 b1 : Bytes} {ys : List FuncIdx} : BU 32 b0 1 → BList BFuncIdx b1 ys →
      BElem (b0 ++ (0x00 :: b1)) ⟨⟨true, .Ht .Func⟩, refFuncs ys, .Passive⟩
  | active {b0 b1 b2 b3 : Bytes} {x : TableIdx} {e : Expr} {ys : List FuncIdx} : BU 32 b0 2 →
      BTableIdx b1 x → BExpr b2 e → BList BFuncIdx b3 ys →
      BElem (b0 ++ (b1 ++ (b2 ++ (0x00 :: b3)))) ⟨⟨true, .Ht .Func⟩, refFuncs ys, .Active x e⟩
  | declare {b0 b1 : Bytes} {ys : List FuncIdx} : BU 32 b0 3 → BList BFuncIdx b1 ys →
      BElem (b0 ++ (0x00 :: b1)) ⟨⟨true, .Ht .Func⟩, refFuncs ys, .Declare⟩
  | active0Expr {b0 b1 b2 : Bytes} {e : Expr} {es : List Expr} : BU 32 b0 4 → BExpr b1 e →
      BList BExpr b2 es → BElem (b0 ++ (b1 ++ b2)) ⟨⟨true, .Ht .Func⟩, es, .Active ⟨0⟩ e⟩
  | passiveExpr {b0 b1 b2 : Bytes} {rt : RefType} {es : List Expr} : BU 32 b0 5 → BRefType b1 rt →
      BList BExpr b2 es → BElem (b0 ++ (b1 ++ b2)) ⟨rt, es, .Passive⟩
  | activeExpr {b0 b1 b2 b3 b4 : Bytes} {x : TableIdx} {e : Expr} {rt : RefType} {es : List Expr} :
      BU 32 b0 6 → BTableIdx b1 x → BExpr b2 e → BRefType b3 rt → BList BExpr b4 es →
      BElem (b0 ++ (b1 ++ (b2 ++ (b3 ++ b4)))) ⟨rt, es, .Active x e⟩
  | declareExpr {b0 b1 b2 : Bytes} {rt : RefType} {es : List Expr} : BU 32 b0 7 → BRefType b1 rt →
      BList BExpr b2 es → BElem (b0 ++ (b1 ++ b2)) ⟨rt, es, .Declare⟩

/-- `data ::= 0:u32 e:expr b*:list(byte) | 1:u32 b*:list(byte) | 2:u32 x:memidx e:expr b*:list(byte)` -/
inductive BData : Bytes → Data → Prop
  | active0 {b0 b1 b2 : Bytes} {e : Expr} {bs : Bytes} : BU 32 b0 0 → BExpr b1 e → BByteVec b2 bs →
      BData (b0 ++ (b1 ++ b2)) ⟨bs, .Active ⟨0⟩ e⟩
  | passive {b0 b1 : Bytes} {bs : Bytes} : BU 32 b0 1 → BByteVec b1 bs →
      BData (b0 ++ b1) ⟨bs, .Passive⟩
  | active {b0 b1 b2 b3 : Bytes} {x : MemIdx} {e : Expr} {bs : Bytes} : BU 32 b0 2 → BMemIdx b1 x →
      BExpr b2 e → BByteVec b3 bs → BData (b0 ++ (b1 ++ (b2 ++ b3))) ⟨bs, .Active x e⟩

/-- `locals ::= n:u32 t:valtype ⇒ t^n` -/
inductive BLocals : Bytes → UInt32 × ValType → Prop
  | mk {b1 b2 : Bytes} {n : UInt32} {t : ValType} : BU32 b1 n → BValType b2 t →
      BLocals (b1 ++ b2) (n, t)

/-- The locals declared by a list of runs `t^n`. -/
def localsOf (runs : List (UInt32 × ValType)) : List ValType :=
  runs.flatMap (fun r => List.replicate r.1.toNat r.2)

/-- An entry of the code section: the declared locals, already expanded, and the body. -/
structure CodeEntry where
  locals : List ValType
  body : Expr

/-- `func ::= loc**:list(locals) e:expr ⇒ (⨁loc**, e)  (if |⨁loc**| < 2^32)` -/
inductive BFunc : Bytes → CodeEntry → Prop
  | mk {b1 b2 : Bytes} {runs : List (UInt32 × ValType)} {e : Expr} : BList BLocals b1 runs →
      BExpr b2 e → (localsOf runs).length < 2 ^ 32 → BFunc (b1 ++ b2) ⟨localsOf runs, e⟩

/-- `code ::= len:u32 code:func ⇒ code  (if len = ||func||)` -/
inductive BCode : Bytes → CodeEntry → Prop
  | mk {b1 b2 : Bytes} {c : CodeEntry} : BU 32 b1 b2.length → BFunc b2 c → BCode (b1 ++ b2) c

/-- The contents of a section. -/
inductive Section where
  | custom (c : CustomSection)
  | type (ts : List RecType)
  | import (is : List Import)
  | function (xs : List TypeIdx)
  | table (ts : List Table)
  | memory (ts : List MemType)
  | tag (ts : List TagType)
  | global (gs : List Global)
  | export (es : List Export)
  | start (x : FuncIdx)
  | element (es : List Elem)
  | dataCount (n : UInt32)
  | code (cs : List CodeEntry)
  | data (ds : List Data)

def Section.kind : Section → SectionKind
  | .custom _ => .Custom | .type _ => .Type | .import _ => .Import | .function _ => .Function
  | .table _ => .Table | .memory _ => .Memory | .tag _ => .Tag | .global _ => .Global
  | .export _ => .Export | .start _ => .Start | .element _ => .Element
  | .dataCount _ => .DataCount | .code _ => .Code | .data _ => .Data

/-- Section ids (5.5.2). -/
def sectionId : SectionKind → UInt8
  | .Custom => 0 | .Type => 1 | .Import => 2 | .Function => 3 | .Table => 4 | .Memory => 5
  | .Global => 6 | .Export => 7 | .Start => 8 | .Element => 9 | .Code => 10 | .Data => 11
  | .DataCount => 12 | .Tag => 13

/-- The order of the non-custom sections in a module (5.5.17). -/
def sectionOrder : List SectionKind :=
  [.Type, .Import, .Function, .Table, .Memory, .Tag, .Global, .Export, .Start, .Element,
   .DataCount, .Code, .Data]

/-- `custom ::= name byte*` -/
inductive BCustom : Bytes → CustomSection → Prop
  | mk {b : Bytes} {nm : Str} {contents : Bytes} : BName b nm → BCustom (b ++ contents) ⟨nm, contents⟩

/-- The contents of a section, without id and size. -/
inductive BContents : Bytes → Section → Prop
  | custom {b : Bytes} {c : CustomSection} : BCustom b c → BContents b (.custom c)
  | type {b : Bytes} {l : List RecType} : BList BRecType b l → BContents b (.type l)
  | import {b : Bytes} {l : List Import} : BList BImport b l → BContents b (.import l)
  | function {b : Bytes} {l : List TypeIdx} : BList BTypeIdx b l → BContents b (.function l)
  | table {b : Bytes} {l : List Table} : BList BTable b l → BContents b (.table l)
  | memory {b : Bytes} {l : List MemType} : BList BMemType b l → BContents b (.memory l)
  | tag {b : Bytes} {l : List TagType} : BList BTagType b l → BContents b (.tag l)
  | global {b : Bytes} {l : List Global} : BList BGlobal b l → BContents b (.global l)
  | export {b : Bytes} {l : List Export} : BList BExport b l → BContents b (.export l)
  | start {b : Bytes} {x : FuncIdx} : BFuncIdx b x → BContents b (.start x)
  | element {b : Bytes} {l : List Elem} : BList BElem b l → BContents b (.element l)
  | dataCount {b : Bytes} {n : UInt32} : BU32 b n → BContents b (.dataCount n)
  | code {b : Bytes} {l : List CodeEntry} : BList BCode b l → BContents b (.code l)
  | data {b : Bytes} {l : List Data} : BList BData b l → BContents b (.data l)

/-- `section_N(B) ::= N:byte len:u32 en*:B ⇒ en*  (if len = ||B||)`; the size is kept because
`Module::section_headers` records it. -/
inductive BSection : Bytes → UInt32 × Section → Prop
  | mk {b1 b2 : Bytes} {size : UInt32} {s : Section} : BU32 b1 size → b2.length = size.toNat →
      BContents b2 s → BSection (sectionId s.kind :: (b1 ++ b2)) (size, s)

/-- The non-custom sections among a list of sections. -/
def nonCustom (ss : List Section) : List SectionKind :=
  (ss.map Section.kind).filter (· ≠ .Custom)

/-! What the sections of a module contribute. -/

def customsOf (ss : List Section) : List CustomSection :=
  ss.filterMap (fun | .custom c => some c | _ => none)
def typesOf (ss : List Section) : List RecType := ss.flatMap (fun | .type l => l | _ => [])
def importsOf (ss : List Section) : List Import := ss.flatMap (fun | .import l => l | _ => [])
def typeIdxsOf (ss : List Section) : List TypeIdx := ss.flatMap (fun | .function l => l | _ => [])
def tablesOf (ss : List Section) : List Table := ss.flatMap (fun | .table l => l | _ => [])
def memsOf (ss : List Section) : List MemType := ss.flatMap (fun | .memory l => l | _ => [])
def tagsOf (ss : List Section) : List TagType := ss.flatMap (fun | .tag l => l | _ => [])
def globalsOf (ss : List Section) : List Global := ss.flatMap (fun | .global l => l | _ => [])
def exportsOf (ss : List Section) : List Export := ss.flatMap (fun | .export l => l | _ => [])
def startOf (ss : List Section) : Option FuncIdx :=
  (ss.filterMap (fun | .start x => some x | _ => none)).head?
def elemsOf (ss : List Section) : List Elem := ss.flatMap (fun | .element l => l | _ => [])
def dataCountOf (ss : List Section) : Option UInt32 :=
  (ss.filterMap (fun | .dataCount n => some n | _ => none)).head?
def codesOf (ss : List Section) : List CodeEntry := ss.flatMap (fun | .code l => l | _ => [])
def datasOf (ss : List Section) : List Data := ss.flatMap (fun | .data l => l | _ => [])

/-- The function with type index `x` and code `c`. -/
def mkFunc (x : TypeIdx) (c : CodeEntry) : Func := ⟨x, c.locals, c.body⟩

/-- The side conditions of 5.5.17 on a sequence of sections. -/
structure WellFormed (ss : List Section) : Prop where
  /-- the non-custom sections appear in the prescribed order, each at most once -/
  order : List.Sublist (nonCustom ss) sectionOrder
  /-- as many function declarations as code entries -/
  funcs : (typeIdxsOf ss).length = (codesOf ss).length
  /-- the optional data count matches the data section -/
  dataCount : ∀ n, dataCountOf ss = some n → (datasOf ss).length = n.toNat
  /-- a data index in the code section requires a data count section -/
  dataIdx : (∃ c ∈ codesOf ss, ∃ i ∈ c.body, UsesData i) → dataCountOf ss ≠ none

/-- The part of `WellFormed` that can be judged while more sections may follow: order, and the
counts of those sections that are already there. -/
structure Acceptable (ss : List Section) : Prop where
  order : List.Sublist (nonCustom ss) sectionOrder
  funcs : (∃ s ∈ ss, s.kind = .Code) → (typeIdxsOf ss).length = (codesOf ss).length
  dataCount : (∃ s ∈ ss, s.kind = .Data) → ∀ n, dataCountOf ss = some n → (datasOf ss).length = n.toNat

/-- The module that a sequence of (size, section) pairs denotes. -/
def assemble (secs : List (UInt32 × Section)) : Module :=
  let ss := secs.map Prod.snd
  { version := [0x01, 0x00, 0x00, 0x00]
    parsed_section_kinds := nonCustom ss
    section_headers := secs.map (fun s => ⟨s.2.kind, s.1⟩)
    custom_sections := customsOf ss
    types := typesOf ss
    funcs := List.zipWith mkFunc (typeIdxsOf ss) (codesOf ss)
    tables := tablesOf ss
    mems := memsOf ss
    globals := globalsOf ss
    elems := elemsOf ss
    data_count := dataCountOf ss
    datas := datasOf ss
    start := startOf ss
    imports := importsOf ss
    exports := exportsOf ss
    tags := tagsOf ss }

/-- `magic version` -/
def preamble : Bytes := [0x00, 0x61, 0x73, 0x6D, 0x01, 0x00, 0x00, 0x00]

/-- `module` (5.5.17): the preamble followed by sections that satisfy the side conditions. -/
inductive BModule : Bytes → Module → Prop
  | mk {bs : Bytes} {secs : List (UInt32 × Section)} : BSeq BSection bs secs →
      WellFormed (secs.map Prod.snd) → BModule (preamble ++ bs) (assemble secs)

/-! Places in an input: used to say where `decode_module` stops. -/

/-- The input consists of the preamble, sections `secs` that may open a module, the id and size of a
section of kind `k`, and `rest`. -/
inductive AtSection : Bytes → List Section → SectionKind → UInt32 → Bytes → Prop
  | mk {bs b1 rest : Bytes} {secs : List (UInt32 × Section)} {k : SectionKind} {size : UInt32} :
      BSeq BSection bs secs → Acceptable (secs.map Prod.snd) → BU32 b1 size →
      AtSection (preamble ++ (bs ++ (sectionId k :: (b1 ++ rest)))) (secs.map Prod.snd) k size rest

/-- The input consists of the preamble and sections `secs` that may open a module. -/
inductive AtEnd : Bytes → List Section → Prop
  | mk {bs : Bytes} {secs : List (UInt32 × Section)} : BSeq BSection bs secs →
      Acceptable (secs.map Prod.snd) → AtEnd (preamble ++ bs) (secs.map Prod.snd)

/-- A section of kind `k` may follow the sections `ss`: its place in the prescribed order is
behind theirs. -/
def MayFollow (ss : List Section) (k : SectionKind) : Prop :=
  List.Sublist (nonCustom ss ++ [k].filter (· ≠ .Custom)) sectionOrder

/-- Two section lists with the same non-custom sections. -/
def SameNonCustom (a b : List (UInt32 × Section)) : Prop :=
  a.filter (fun s => s.2.kind ≠ .Custom) = b.filter (fun s => s.2.kind ≠ .Custom)

/-- Section kind `a` stands before section kind `b` in the prescribed order. -/
def Before (a b : SectionKind) : Prop := List.Sublist [a, b] sectionOrder

/-- One section of an input: its header, the bytes of its size field, and its contents. -/
structure Part where
  header : SectionHeader
  sizeField : Bytes
  contents : Bytes

/-- The bytes of a section. -/
def Part.bytes (p : Part) : Bytes := sectionId p.header.kind :: (p.sizeField ++ p.contents)

/-- The size field encodes the recorded size, and that is the number of content bytes. -/
def Part.Ok (p : Part) : Prop :=
  BU32 p.sizeField p.header.size ∧ p.contents.length = p.header.size.toNat

/-- Element-wise relation of two lists of the same length. -/
inductive Each {α β : Type} (P : α → β → Prop) : List α → List β → Prop
  | nil : Each P [] []
  | cons {a : α} {b : β} {as : List α} {bs : List β} : P a b → Each P as bs → Each P (a :: as) (b :: bs)

end Wadec.Spec
