import Verif.Spec.Module

/-! Editing a binary module: replacing consecutive entries of one section by other entries. -/

namespace Wadec.Spec

/-- A kind of section whose contents are a list of entries, and where those entries are in a module. -/
structure EntryKind (α : Type) where
  /-- the kind of section -/
  kind : SectionKind
  /-- the grammar of an entry -/
  B : Bytes → α → Prop
  /-- the entries of a module -/
  get : Module → List α
  /-- the module with other entries, all else being equal -/
  put : Module → List α → Module
  /-- what else must hold in the module for the entries `old` to be replaced by `new`: the side conditions of 5.5.17 -/
  ok : Module → (old new : List α) → Prop

def entTypes : EntryKind RecType := ⟨.Type, BRecType, (·.types), fun m l => { m with types := l }, fun _ _ _ => True⟩
def entImports : EntryKind Import := ⟨.Import, BImport, (·.imports), fun m l => { m with imports := l }, fun _ _ _ => True⟩
def entTables : EntryKind Table := ⟨.Table, BTable, (·.tables), fun m l => { m with tables := l }, fun _ _ _ => True⟩
def entMems : EntryKind MemType := ⟨.Memory, BMemType, (·.mems), fun m l => { m with mems := l }, fun _ _ _ => True⟩
def entTags : EntryKind TagType := ⟨.Tag, BTagType, (·.tags), fun m l => { m with tags := l }, fun _ _ _ => True⟩
def entGlobals : EntryKind Global := ⟨.Global, BGlobal, (·.globals), fun m l => { m with globals := l }, fun _ _ _ => True⟩
def entExports : EntryKind Export := ⟨.Export, BExport, (·.exports), fun m l => { m with exports := l }, fun _ _ _ => True⟩
def entElems : EntryKind Elem := ⟨.Element, BElem, (·.elems), fun m l => { m with elems := l }, fun _ _ _ => True⟩
/-- Data segments: a data count section fixes their number. -/
def entDatas : EntryKind Data :=
  ⟨.Data, BData, (·.datas), fun m l => { m with datas := l }, fun m old new => m.data_count ≠ none → new.length = old.length⟩
/-- The types of functions: as many as there are code entries. -/
def entFuncTypes : EntryKind TypeIdx :=
  ⟨.Function, BTypeIdx, fun m => m.funcs.map (·.type),
    fun m l => { m with funcs := List.zipWith (fun f x => { f with type := x }) m.funcs l },
    fun _ old new => new.length = old.length⟩
/-- The code of functions: as many entries as there are function types; a data index requires a data count section. -/
def entCodes : EntryKind CodeEntry :=
  ⟨.Code, BCode, fun m => m.funcs.map fun f => ⟨f.locals, f.body⟩,
    fun m l => { m with funcs := List.zipWith (fun f c => { f with locals := c.locals, body := c.body }) m.funcs l },
    fun m old new => new.length = old.length ∧ ((∃ c ∈ new, ∃ i ∈ c.body, UsesData i) → m.data_count ≠ none)⟩

/-- A place in a binary module: after the sections `secs`, in a section of kind `F.kind` whose size is `size` and which
announces `count` entries, after the entries `pre`, there are the entries `mid`.  `before`, `sz`, `n`, `es1` and `es` are the
bytes of `secs`, `size`, `count`, `pre` and `mid`; `rest` is all that follows. -/
structure Site (α : Type) where
  before : Bytes
  secs : List (UInt32 × Section)
  sz : Bytes
  size : UInt32
  n : Bytes
  count : UInt32
  es1 : Bytes
  pre : List α
  es : Bytes
  mid : List α
  rest : Bytes

/-- The bytes of a module with that place. -/
def Site.bytes {α : Type} (F : EntryKind α) (p : Site α) : Bytes :=
  preamble ++ (p.before ++ (sectionId F.kind :: (p.sz ++ (p.n ++ (p.es1 ++ (p.es ++ p.rest))))))

/-- The parts of the place are what they are said to be. -/
structure Site.Valid {α : Type} (F : EntryKind α) (p : Site α) : Prop where
  secs : BSeq BSection p.before p.secs
  size : BU32 p.sz p.size
  count : BU32 p.n p.count
  pre : BSeq F.B p.es1 p.pre
  mid : BSeq F.B p.es p.mid
  room : p.pre.length + p.mid.length ≤ p.count.toNat

/-- `q` is `p` with other entries in the place of `p.mid`, and with size and count adjusted accordingly. -/
structure Site.Edits {α : Type} (p q : Site α) : Prop where
  before : q.before = p.before
  secs : q.secs = p.secs
  es1 : q.es1 = p.es1
  pre : q.pre = p.pre
  rest : q.rest = p.rest
  count : q.count.toNat + p.mid.length = p.count.toNat + q.mid.length
  size : q.size.toNat + (p.n ++ p.es).length = p.size.toNat + (q.n ++ q.es).length

/-! Inserting and removing a section. -/

/-- A section that may be inserted into a module, or removed from it. -/
structure SectionEdit where
  /-- the contents of the section -/
  contents : Section
  /-- the module with these contents, all else being equal -/
  add : Module → Module
  /-- the module without them -/
  remove : Module → Module
  /-- what must hold in a module for the section to be inserted, besides the order of sections: the side conditions of 5.5.17 -/
  mayAdd : Module → Prop
  /-- what must hold in a module with the section for it to be removed -/
  mayRemove : Module → Prop

def insTypes (l : List RecType) : SectionEdit := ⟨.type l, fun m => { m with types := l }, fun m => { m with types := [] }, fun _ => True, fun _ => True⟩
def insImports (l : List Import) : SectionEdit := ⟨.import l, fun m => { m with imports := l }, fun m => { m with imports := [] }, fun _ => True, fun _ => True⟩
def insTables (l : List Table) : SectionEdit := ⟨.table l, fun m => { m with tables := l }, fun m => { m with tables := [] }, fun _ => True, fun _ => True⟩
def insMems (l : List MemType) : SectionEdit := ⟨.memory l, fun m => { m with mems := l }, fun m => { m with mems := [] }, fun _ => True, fun _ => True⟩
def insTags (l : List TagType) : SectionEdit := ⟨.tag l, fun m => { m with tags := l }, fun m => { m with tags := [] }, fun _ => True, fun _ => True⟩
def insGlobals (l : List Global) : SectionEdit := ⟨.global l, fun m => { m with globals := l }, fun m => { m with globals := [] }, fun _ => True, fun _ => True⟩
def insExports (l : List Export) : SectionEdit := ⟨.export l, fun m => { m with exports := l }, fun m => { m with exports := [] }, fun _ => True, fun _ => True⟩
def insStart (x : FuncIdx) : SectionEdit := ⟨.start x, fun m => { m with start := some x }, fun m => { m with start := none }, fun _ => True, fun _ => True⟩
def insElems (l : List Elem) : SectionEdit := ⟨.element l, fun m => { m with elems := l }, fun m => { m with elems := [] }, fun _ => True, fun _ => True⟩
/-- A data count section must agree with the data segments; if the code refers to data segments it cannot be removed. -/
def insDataCount (n : UInt32) : SectionEdit :=
  ⟨.dataCount n, fun m => { m with data_count := some n }, fun m => { m with data_count := none }, fun m => m.datas.length = n.toNat,
    fun m => ¬ ∃ f ∈ m.funcs, ∃ i ∈ f.body, UsesData i⟩
/-- Data segments must agree with a data count section. -/
def insDatas (l : List Data) : SectionEdit :=
  ⟨.data l, fun m => { m with datas := l }, fun m => { m with datas := [] }, fun m => ∀ n, m.data_count = some n → l.length = n.toNat,
    fun m => m.data_count ≠ none → l = []⟩
/-- A function section alone must be empty. -/
def insFuncTypes (l : List TypeIdx) : SectionEdit := ⟨.function l, fun m => m, fun m => m, fun _ => l = [], fun _ => l = []⟩
/-- A code section alone must be empty. -/
def insCodes (l : List CodeEntry) : SectionEdit := ⟨.code l, fun m => m, fun m => m, fun _ => l = [], fun _ => l = []⟩

/-- The module with a section of kind `k` and size `size` recorded behind the sections `secs`. -/
def record (secs : List (UInt32 × Section)) (k : SectionKind) (size : UInt32) (m : Module) : Module :=
  { m with
    parsed_section_kinds := m.parsed_section_kinds.insertIdx (nonCustom (secs.map Prod.snd)).length k
    section_headers := m.section_headers.insertIdx secs.length ⟨k, size⟩ }

/-- The module without the record of the section behind the sections `secs`. -/
def unrecord (secs : List (UInt32 × Section)) (m : Module) : Module :=
  { m with
    parsed_section_kinds := m.parsed_section_kinds.eraseIdx (nonCustom (secs.map Prod.snd)).length
    section_headers := m.section_headers.eraseIdx secs.length }

end Wadec.Spec
