import Verif.Model.Sections

/-! Model of src/decode/module.rs. -/

namespace Wadec

variable {R : Type} [Read R]

/-- src/decode/module.rs:12 -/
def VERSION : List UInt8 := [0x01, 0x00, 0x00, 0x00]
/-- src/decode/module.rs:11 -/
def MAGIC_NUMBER : List UInt8 := [0x00, 0x61, 0x73, 0x6D]
/-- src/decode/module.rs:14-23 -/
def EXPECTED_PREAMBLE : List UInt8 := MAGIC_NUMBER ++ VERSION

/-- src/decode/module.rs:53-74 `Module::default` -/
def Module.default : Module where
  version := VERSION
  parsed_section_kinds := []
  section_headers := []
  data_count := none
  custom_sections := []
  types := []
  funcs := []
  tables := []
  mems := []
  globals := []
  elems := []
  datas := []
  start := none
  imports := []
  exports := []
  tags := []

/-- src/decode/module.rs:91-106 `SectionId_MARKERS` -/
def SectionKind.markers : List (UInt8 × SectionKind) :=
  [(0, .Custom), (1, .Type), (2, .Import), (3, .Function), (4, .Table), (5, .Memory), (6, .Global),
   (7, .Export), (8, .Start), (9, .Element), (10, .Code), (11, .Data), (12, .DataCount), (13, .Tag)]

/-- The discriminant of `SectionKind` (src/core/module.rs:171-187), which `derive(PartialOrd)`
compares. -/
def SectionKind.rank : SectionKind → Nat
  | .Custom => 0 | .Type => 1 | .Import => 2 | .Function => 3 | .Table => 4 | .Memory => 5
  | .Tag => 6 | .Global => 7 | .Export => 8 | .Start => 9 | .Element => 10 | .DataCount => 11
  | .Code => 12 | .Data => 13

/-- src/decode/module.rs:26-50 `validate_section_kind_expected` -/
def Module.validateSectionKindExpected (self : Module) (current : SectionKind) :
    Dec R DecodeModuleError Unit :=
  match self.parsed_section_kinds.getLast? with
  | none => pure ()
  | some previous =>
    if current = .Custom then pure ()
    else if current.rank < previous.rank then Dec.err (.SectionOutOfOrder current previous)
    else if current = previous then Dec.err (.DuplicateSection current)
    else pure ()

/-- src/decode/module.rs:362-371 `parse_preamble` -/
def parsePreamble : Dec R ParsePreambleError Unit := do
  let preamble ← (readExact 8).mapErr ParsePreambleError.Io
  if preamble ≠ EXPECTED_PREAMBLE then Dec.err (.Unexpected preamble)
  else pure ()

/-- src/decode/module.rs:394-397: the rest of `decode_section_header` after the ID byte -/
def sectionHeaderRest (id : UInt8) : Dec R DecodeSectionHeaderError (Option SectionHeader) :=
  match fromMarker SectionKind.markers id with
  | none => Dec.err (.InvalidSectionId ⟨id⟩)
  | some kind => do
    let size ← decodeU32.mapErr DecodeSectionHeaderError.DecodeSectionSize
    pure (some ⟨kind, size⟩)

/-- src/decode/module.rs:385-398 `decode_section_header`: the end of the input at the ID byte is
the end of the module; any error of kind `UnexpectedEof` counts as that. -/
def decodeSectionHeader : Dec R DecodeSectionHeaderError (Option SectionHeader) := fun r =>
  match readByte r with
  | (.ok id, r') => sectionHeaderRest id r'
  | (.err e, r') =>
    if e = .unexpectedEof then (.ok none, r') else (.err (.ReadSectionIdByte e), r')
  | (.panic, r') => (.panic, r')
  | (.fuel, r') => (.fuel, r')

/-- The local variables of `decode_module` (src/decode/module.rs:210-221). -/
structure LoopState where
  module : Module
  encountered_code_section : Bool
  encountered_data_idx_in_code_section : Bool
  deriving Repr

/-- src/decode/module.rs:273-277: expansion of the run-length encoded locals -/
def expandLocals (locals : List Local) : List ValType :=
  locals.flatMap (fun l => List.replicate l.count.toNat l.t)

/-- src/decode/module.rs:272-284: `for (i, code) in codes.into_iter().enumerate()`; `funcs[i]`
panics if out of bounds. -/
def fillFuncs : List Code → Nat → List Func → Bool → Dec R DecodeModuleError (List Func × Bool)
  | [], _, funcs, enc => pure (funcs, enc)
  | code :: codes, i, funcs, enc =>
    match funcs[i]? with
    | none => Dec.panic
    | some f =>
      fillFuncs codes (i + 1)
        (funcs.set i { f with locals := f.locals ++ expandLocals code.locals, body := code.expr })
        (if code.encountered_data_index then true else enc)

/-- src/decode/module.rs:229-302: the `match section_kind`, run on `input.by_ref().take(size)` -/
def decodeSectionBody (kind : SectionKind) (st : LoopState) :
    Dec R DecodeModuleError LoopState :=
  let m := st.module
  match kind with
  | .Custom => do
    let s ← decodeSectionCustom.mapErr DecodeModuleError.DecodeCustomSection
    pure { st with module := { m with custom_sections := m.custom_sections ++ [s] } }
  | .Type => do
    let types ← decodeTypeSection.mapErr DecodeModuleError.DecodeTypeSection
    pure { st with module := { m with types } }
  | .Import => do
    let imports ← decodeImportSection.mapErr DecodeModuleError.DecodeImportSection
    pure { st with module := { m with imports } }
  | .Function => do
    let idxs ← decodeFunctionSection.mapErr DecodeModuleError.DecodeFunctionSection
    pure { st with module :=
      { m with funcs := m.funcs ++ idxs.map (fun type_idx => ⟨type_idx, [], []⟩) } }
  | .Table => do
    let tables ← decodeTableSection.mapErr DecodeModuleError.DecodeTableSection
    pure { st with module := { m with tables } }
  | .Memory => do
    let mems ← decodeMemorySection.mapErr DecodeModuleError.DecodeMemorySection
    pure { st with module := { m with mems } }
  | .Global => do
    let globals ← decodeGlobalSection.mapErr DecodeModuleError.DecodeGlobalSection
    pure { st with module := { m with globals } }
  | .Export => do
    let exports ← decodeExportSection.mapErr DecodeModuleError.DecodeExportSection
    pure { st with module := { m with exports } }
  | .Start => do
    let start ← decodeStartSection.mapErr DecodeModuleError.DecodeStartSection
    pure { st with module := { m with start := some start } }
  | .Element => do
    let elems ← decodeElementSection.mapErr DecodeModuleError.DecodeElementSection
    pure { st with module := { m with elems } }
  | .DataCount => do
    let n ← decodeDatacountSection.mapErr DecodeModuleError.DecodeDatacountSection
    pure { st with module := { m with data_count := some n } }
  | .Code => do
    let codes ← decodeCodeSection.mapErr DecodeModuleError.DecodeCodeSection
    if codes.length ≠ m.funcs.length then
      Dec.err (.CodeFuncEntriesLenMismatch codes.length m.funcs.length)
    else do
      let (funcs, enc) ← fillFuncs codes 0 m.funcs st.encountered_data_idx_in_code_section
      pure ⟨{ m with funcs }, true, enc⟩
  | .Data => do
    let datas ← decodeDataSection.mapErr DecodeModuleError.DecodeDataSection
    match m.data_count with
    | some data_count =>
      if datas.length ≠ data_count.toNat then
        Dec.err (.DataCountMismatch datas.length data_count)
      else pure { st with module := { m with datas } }
    | none => pure { st with module := { m with datas } }
  | .Tag => do
    let tags ← decodeTagSection.mapErr DecodeModuleError.DecodeTagSection
    pure { st with module := { m with tags } }

/-- src/decode/module.rs:224-318: one iteration of the section loop, after the header has been
read: order check, contents, size check, bookkeeping. -/
def decodeSection (h : SectionHeader) (st : LoopState) : Dec R DecodeModuleError LoopState := do
  st.module.validateSectionKindExpected h.kind
  let (st, limit) ← Dec.withTake h.size.toNat (decodeSectionBody h.kind st)
  if limit ≠ 0 then
    Dec.err (.SectionSizeMismatch h.kind h.size (UInt64.ofNat (h.size.toNat - limit)))
  else
    pure { st with module := { st.module with
      section_headers := st.module.section_headers ++ [h]
      parsed_section_kinds :=
        if h.kind ≠ .Custom then st.module.parsed_section_kinds ++ [h.kind]
        else st.module.parsed_section_kinds } }

/-- src/decode/module.rs:223-319: `while let Some(section_header) = decode_section_header(..)?`.
The `Nat` is the step budget (model artefact). -/
def sectionLoop : Nat → LoopState → Dec R DecodeModuleError LoopState
  | 0, _ => Dec.outOfFuel
  | n + 1, st => do
    let h ← decodeSectionHeader.mapErr DecodeModuleError.DecodeSectionHeader
    match h with
    | none => pure st
    | some h => do
      let st ← decodeSection h st
      sectionLoop n st

/-- src/decode/module.rs:321-350: the checks after the loop.  (`usize::try_from(u32)` cannot
fail: usize has at least 32 bits.) -/
def finalChecks (st : LoopState) : Dec R DecodeModuleError Module :=
  let m := st.module
  if m.funcs ≠ [] ∧ ¬ st.encountered_code_section = true then
    Dec.err (.CodeFuncEntriesLenMismatch 0 m.funcs.length)
  else if m.data_count.any (fun n => n.toNat ≠ m.datas.length) = true then
    Dec.err (.DataCountDatasLenMismatch m.datas.length (m.data_count.getD 0))
  else if st.encountered_data_idx_in_code_section = true ∧ m.data_count.isNone = true then
    Dec.err .DataIndexWithoutDataCount
  else pure m

/-- src/decode/module.rs:207-351 `decode_module` -/
def decodeModule : Dec R DecodeModuleError Module := fun r =>
  (do
    parsePreamble.mapErr DecodeModuleError.ParsePreamble
    let st ← sectionLoop (Read.weight r + 1) ⟨Module.default, false, false⟩
    finalChecks st : Dec R DecodeModuleError Module) r

end Wadec
