import Verif.Proof.Sections

/-! What the section loop of `decode_module` accumulates, against `Spec.assemble`. -/

namespace Wadec

open Wadec.Spec LawfulRead

/-! ### Section order -/

theorem sublist_of_sorted {α : Type} (f : α → Nat) : ∀ (L l : List α),
    L.Pairwise (fun a b => f a < f b) → l.Pairwise (fun a b => f a < f b) → (∀ x ∈ l, x ∈ L) →
    l.Sublist L := by
  intro L
  induction L with
  | nil =>
    intro l _ _ h
    cases l with
    | nil => exact .slnil
    | cons b l => exact absurd (h b (by simp)) (by simp)
  | cons a L ih =>
    intro l hL hl h
    cases l with
    | nil => exact List.nil_sublist _
    | cons b l =>
      rw [List.pairwise_cons] at hL hl
      rcases List.mem_cons.1 (h b (by simp)) with rfl | hb
      · refine List.Sublist.cons_cons _ (ih l hL.2 hl.2 fun x hx => ?_)
        rcases List.mem_cons.1 (h x (by simp [hx])) with rfl | hx'
        · exact absurd (hl.1 _ hx) (by omega)
        · exact hx'
      · refine List.Sublist.cons _ (ih (b :: l) hL.2 (List.pairwise_cons.2 hl) fun x hx => ?_)
        rcases List.mem_cons.1 (h x hx) with rfl | hx'
        · have h1 := hL.1 b hb
          rcases List.mem_cons.1 hx with rfl | hx
          · exact hb
          · exact absurd (hl.1 _ hx) (by omega)
        · exact hx'

theorem SectionKind.rank_inj {a b : SectionKind} (h : a.rank = b.rank) : a = b := by
  cases a <;> cases b <;> first | rfl | (simp [SectionKind.rank] at h)

def Sorted (l : List SectionKind) : Prop := l.Pairwise (fun a b => a.rank < b.rank)

theorem sectionOrder_sorted : Sorted sectionOrder := by
  simp only [Sorted, sectionOrder, SectionKind.rank, List.pairwise_cons]
  simp

theorem mem_sectionOrder {k : SectionKind} (h : k ≠ .Custom) : k ∈ sectionOrder := by
  cases k <;> first | exact absurd rfl h | simp [sectionOrder]

theorem sorted_iff {ss : List Section} :
    Sorted (nonCustom ss) ↔ (nonCustom ss).Sublist sectionOrder := by
  constructor
  · intro h
    refine sublist_of_sorted SectionKind.rank _ _ sectionOrder_sorted h fun x hx => ?_
    exact mem_sectionOrder (by simpa [nonCustom] using (List.mem_filter.1 hx).2)
  · intro h
    exact List.Pairwise.sublist h sectionOrder_sorted

theorem nonCustom_append (a b : List Section) : nonCustom (a ++ b) = nonCustom a ++ nonCustom b := by
  simp [nonCustom]

theorem nonCustom_single {s : Section} (h : s.kind ≠ .Custom) : nonCustom [s] = [s.kind] := by
  simp [nonCustom, h]

theorem nonCustom_custom {s : Section} (h : s.kind = .Custom) : nonCustom [s] = [] := by
  simp [nonCustom, h]

theorem mem_nonCustom {ss : List Section} {s : Section} (h : s ∈ ss) (hk : s.kind ≠ .Custom) :
    s.kind ∈ nonCustom ss := by
  simp only [nonCustom, List.mem_filter, List.mem_map]
  exact ⟨⟨s, h, rfl⟩, by simpa using hk⟩

theorem Sorted.before {pre : List Section} {s : Section} (h : Sorted (nonCustom (pre ++ [s])))
    (hk : s.kind ≠ .Custom) : ∀ s' ∈ pre, s'.kind.rank < s.kind.rank := by
  intro s' hs'
  rw [nonCustom_append, nonCustom_single hk, Sorted, List.pairwise_append] at h
  by_cases hc : s'.kind = .Custom
  · rw [hc]
    generalize s.kind = k at hk ⊢
    cases k <;> first | exact absurd rfl hk | (simp [SectionKind.rank])
  · exact h.2.2 _ (mem_nonCustom hs' hc) _ (by simp)

theorem Sorted.after {pre post : List Section} {s : Section}
    (h : Sorted (nonCustom (pre ++ s :: post))) (hk : s.kind ≠ .Custom) :
    ∀ s' ∈ post, s'.kind ≠ .Custom → s.kind.rank < s'.kind.rank := by
  intro s' hs' hc
  rw [nonCustom_append, Sorted, List.pairwise_append] at h
  have h2 := h.2.1
  rw [← List.singleton_append, nonCustom_append, nonCustom_single hk, List.pairwise_append] at h2
  exact h2.2.2 _ (by simp) _ (mem_nonCustom hs' hc)

theorem Sorted.prefix {a b : List Section} (h : Sorted (nonCustom (a ++ b))) :
    Sorted (nonCustom a) := by
  rw [nonCustom_append, Sorted, List.pairwise_append] at h
  exact h.1

/-! ### Contributions of absent sections -/

theorem typesOf_nil {ss : List Section} (h : ∀ s ∈ ss, s.kind ≠ .Type) : typesOf ss = [] := by
  simp only [typesOf, List.flatMap_eq_nil_iff]
  intro s hs; have := h s hs; cases s <;> simp_all [Section.kind]
theorem importsOf_nil {ss : List Section} (h : ∀ s ∈ ss, s.kind ≠ .Import) : importsOf ss = [] := by
  simp only [importsOf, List.flatMap_eq_nil_iff]
  intro s hs; have := h s hs; cases s <;> simp_all [Section.kind]
theorem typeIdxsOf_nil {ss : List Section} (h : ∀ s ∈ ss, s.kind ≠ .Function) :
    typeIdxsOf ss = [] := by
  simp only [typeIdxsOf, List.flatMap_eq_nil_iff]
  intro s hs; have := h s hs; cases s <;> simp_all [Section.kind]
theorem tablesOf_nil {ss : List Section} (h : ∀ s ∈ ss, s.kind ≠ .Table) : tablesOf ss = [] := by
  simp only [tablesOf, List.flatMap_eq_nil_iff]
  intro s hs; have := h s hs; cases s <;> simp_all [Section.kind]
theorem memsOf_nil {ss : List Section} (h : ∀ s ∈ ss, s.kind ≠ .Memory) : memsOf ss = [] := by
  simp only [memsOf, List.flatMap_eq_nil_iff]
  intro s hs; have := h s hs; cases s <;> simp_all [Section.kind]
theorem tagsOf_nil {ss : List Section} (h : ∀ s ∈ ss, s.kind ≠ .Tag) : tagsOf ss = [] := by
  simp only [tagsOf, List.flatMap_eq_nil_iff]
  intro s hs; have := h s hs; cases s <;> simp_all [Section.kind]
theorem globalsOf_nil {ss : List Section} (h : ∀ s ∈ ss, s.kind ≠ .Global) : globalsOf ss = [] := by
  simp only [globalsOf, List.flatMap_eq_nil_iff]
  intro s hs; have := h s hs; cases s <;> simp_all [Section.kind]
theorem exportsOf_nil {ss : List Section} (h : ∀ s ∈ ss, s.kind ≠ .Export) : exportsOf ss = [] := by
  simp only [exportsOf, List.flatMap_eq_nil_iff]
  intro s hs; have := h s hs; cases s <;> simp_all [Section.kind]
theorem startOf_nil {ss : List Section} (h : ∀ s ∈ ss, s.kind ≠ .Start) : startOf ss = none := by
  simp only [startOf, List.head?_eq_none_iff, List.filterMap_eq_nil_iff]
  intro s hs; have := h s hs; cases s <;> simp_all [Section.kind]
theorem elemsOf_nil {ss : List Section} (h : ∀ s ∈ ss, s.kind ≠ .Element) : elemsOf ss = [] := by
  simp only [elemsOf, List.flatMap_eq_nil_iff]
  intro s hs; have := h s hs; cases s <;> simp_all [Section.kind]
theorem dataCountOf_nil {ss : List Section} (h : ∀ s ∈ ss, s.kind ≠ .DataCount) :
    dataCountOf ss = none := by
  simp only [dataCountOf, List.head?_eq_none_iff, List.filterMap_eq_nil_iff]
  intro s hs; have := h s hs; cases s <;> simp_all [Section.kind]
theorem codesOf_nil {ss : List Section} (h : ∀ s ∈ ss, s.kind ≠ .Code) : codesOf ss = [] := by
  simp only [codesOf, List.flatMap_eq_nil_iff]
  intro s hs; have := h s hs; cases s <;> simp_all [Section.kind]
theorem datasOf_nil {ss : List Section} (h : ∀ s ∈ ss, s.kind ≠ .Data) : datasOf ss = [] := by
  simp only [datasOf, List.flatMap_eq_nil_iff]
  intro s hs; have := h s hs; cases s <;> simp_all [Section.kind]

/-! ### The accumulated state -/

def hasCode (ss : List Section) : Bool := ss.any (fun s => s.kind = .Code)

/-- The state of the section loop after the sections `secs`. -/
def stateOf (secs : List (UInt32 × Section)) : LoopState :=
  let ss := secs.map Prod.snd
  { module := { assemble secs with
      funcs := bif hasCode ss then List.zipWith mkFunc (typeIdxsOf ss) (codesOf ss)
        else (typeIdxsOf ss).map (fun x => ⟨x, [], []⟩) }
    encountered_code_section := hasCode ss
    encountered_data_idx_in_code_section := (codesOf ss).any (fun c => anyContainsDataIdx c.body) }

/-- The code of an entry put into an already declared function. -/
def fill (f : Func) (c : CodeEntry) : Func := { f with locals := f.locals ++ c.locals, body := c.body }

/-- What the contents of a section do to the state. -/
def applySection (st : LoopState) : Section → LoopState
  | .custom c => { st with module := { st.module with
      custom_sections := st.module.custom_sections ++ [c] } }
  | .type l => { st with module := { st.module with types := l } }
  | .import l => { st with module := { st.module with imports := l } }
  | .function l => { st with module := { st.module with
      funcs := st.module.funcs ++ l.map (fun x => ⟨x, [], []⟩) } }
  | .table l => { st with module := { st.module with tables := l } }
  | .memory l => { st with module := { st.module with mems := l } }
  | .tag l => { st with module := { st.module with tags := l } }
  | .global l => { st with module := { st.module with globals := l } }
  | .export l => { st with module := { st.module with exports := l } }
  | .start x => { st with module := { st.module with start := some x } }
  | .element l => { st with module := { st.module with elems := l } }
  | .dataCount n => { st with module := { st.module with data_count := some n } }
  | .code cs => ⟨{ st.module with funcs := List.zipWith fill st.module.funcs cs }, true,
      st.encountered_data_idx_in_code_section || cs.any (fun c => anyContainsDataIdx c.body)⟩
  | .data l => { st with module := { st.module with datas := l } }

/-- The checks made when a section has been read. -/
def secOk (st : LoopState) : Section → Prop
  | .code cs => cs.length = st.module.funcs.length
  | .data ds => ∀ n, st.module.data_count = some n → ds.length = n.toNat
  | _ => True

/-- The bookkeeping at the end of an iteration. -/
def finishSection (h : SectionHeader) (st : LoopState) : LoopState :=
  { st with module := { st.module with
      section_headers := st.module.section_headers ++ [h]
      parsed_section_kinds :=
        if h.kind ≠ .Custom then st.module.parsed_section_kinds ++ [h.kind]
        else st.module.parsed_section_kinds } }

theorem stateOf_nil : stateOf [] = ⟨Module.default, false, false⟩ := rfl

theorem zipWith_fill (xs : List TypeIdx) (cs : List CodeEntry) :
    List.zipWith fill (xs.map (fun x => ⟨x, [], []⟩)) cs = List.zipWith mkFunc xs cs := by
  rw [List.zipWith_map_left]
  rfl

theorem hasCode_false {ss : List Section} (h : ∀ s ∈ ss, s.kind ≠ .Code) : hasCode ss = false := by
  simp [hasCode, List.any_eq_false]
  exact h

theorem kind_custom (x : CustomSection) : (Section.custom x).kind = .Custom := rfl
theorem kind_type (x : (List RecType)) : (Section.type x).kind = .Type := rfl
theorem kind_import (x : (List Import)) : (Section.import x).kind = .Import := rfl
theorem kind_function (x : (List TypeIdx)) : (Section.function x).kind = .Function := rfl
theorem kind_table (x : (List Table)) : (Section.table x).kind = .Table := rfl
theorem kind_memory (x : (List MemType)) : (Section.memory x).kind = .Memory := rfl
theorem kind_tag (x : (List TagType)) : (Section.tag x).kind = .Tag := rfl
theorem kind_global (x : (List Global)) : (Section.global x).kind = .Global := rfl
theorem kind_export (x : (List Export)) : (Section.export x).kind = .Export := rfl
theorem kind_start (x : FuncIdx) : (Section.start x).kind = .Start := rfl
theorem kind_element (x : (List Elem)) : (Section.element x).kind = .Element := rfl
theorem kind_dataCount (x : UInt32) : (Section.dataCount x).kind = .DataCount := rfl
theorem kind_code (x : (List CodeEntry)) : (Section.code x).kind = .Code := rfl
theorem kind_data (x : (List Data)) : (Section.data x).kind = .Data := rfl

theorem hasCode_append (a b : List Section) : hasCode (a ++ b) = (hasCode a || hasCode b) := by
  simp [hasCode]
theorem hasCode_single (s : Section) : hasCode [s] = decide (s.kind = .Code) := by
  simp [hasCode]

theorem stateOf_snoc (pre : List (UInt32 × Section)) (size : UInt32) (s : Section)
    (ho : Sorted (nonCustom ((pre ++ [(size, s)]).map Prod.snd))) :
    finishSection ⟨s.kind, size⟩ (applySection (stateOf pre) s) = stateOf (pre ++ [(size, s)]) := by
  have hb : s.kind ≠ .Custom → ∀ s' ∈ pre.map Prod.snd, s'.kind.rank < s.kind.rank := by
    intro hk
    rw [List.map_append] at ho
    exact Sorted.before ho hk
  have hne : ∀ k : SectionKind, s.kind = k → k ≠ .Custom → ∀ s' ∈ pre.map Prod.snd, s'.kind ≠ k := by
    intro k hk hc s' hs' he
    have := hb (hk ▸ hc) s' hs'
    rw [he, hk] at this; omega
  cases s with
  | custom c =>
    simp [stateOf, applySection, finishSection, assemble, kind_custom, kind_type, kind_import, kind_function, kind_table, kind_memory, kind_tag,
      kind_global, kind_export, kind_start, kind_element, kind_dataCount, kind_code, kind_data, nonCustom, customsOf, typesOf,
      importsOf, typeIdxsOf, tablesOf, memsOf, tagsOf, globalsOf, exportsOf, startOf, elemsOf,
      dataCountOf, codesOf, datasOf, hasCode_append, hasCode_single]
  | type l =>
    have h := typesOf_nil (hne .Type rfl (by decide))
    simp only [typesOf] at h
    simp [stateOf, applySection, finishSection, assemble, kind_custom, kind_type, kind_import, kind_function, kind_table, kind_memory, kind_tag,
      kind_global, kind_export, kind_start, kind_element, kind_dataCount, kind_code, kind_data, nonCustom, customsOf, typesOf,
      importsOf, typeIdxsOf, tablesOf, memsOf, tagsOf, globalsOf, exportsOf, startOf, elemsOf,
      dataCountOf, codesOf, datasOf, hasCode_append, hasCode_single, h]
  | «import» l =>
    have h := importsOf_nil (hne .Import rfl (by decide))
    simp only [importsOf] at h
    simp [stateOf, applySection, finishSection, assemble, kind_custom, kind_type, kind_import, kind_function, kind_table, kind_memory, kind_tag,
      kind_global, kind_export, kind_start, kind_element, kind_dataCount, kind_code, kind_data, nonCustom, customsOf, typesOf,
      importsOf, typeIdxsOf, tablesOf, memsOf, tagsOf, globalsOf, exportsOf, startOf, elemsOf,
      dataCountOf, codesOf, datasOf, hasCode_append, hasCode_single, h]
  | function l =>
    have h := typeIdxsOf_nil (hne .Function rfl (by decide))
    simp only [typeIdxsOf] at h
    have hc : hasCode (pre.map Prod.snd) = false := hasCode_false (by
      intro s' hs' he
      have := hb (by simp [Section.kind]) s' hs'
      rw [he] at this; simp [Section.kind, SectionKind.rank] at this)
    simp [stateOf, applySection, finishSection, assemble, kind_custom, kind_type, kind_import, kind_function, kind_table, kind_memory, kind_tag,
      kind_global, kind_export, kind_start, kind_element, kind_dataCount, kind_code, kind_data, nonCustom, customsOf, typesOf,
      importsOf, typeIdxsOf, tablesOf, memsOf, tagsOf, globalsOf, exportsOf, startOf, elemsOf,
      dataCountOf, codesOf, datasOf, hasCode_append, hasCode_single, h, hc]
  | table l =>
    have h := tablesOf_nil (hne .Table rfl (by decide))
    simp only [tablesOf] at h
    simp [stateOf, applySection, finishSection, assemble, kind_custom, kind_type, kind_import, kind_function, kind_table, kind_memory, kind_tag,
      kind_global, kind_export, kind_start, kind_element, kind_dataCount, kind_code, kind_data, nonCustom, customsOf, typesOf,
      importsOf, typeIdxsOf, tablesOf, memsOf, tagsOf, globalsOf, exportsOf, startOf, elemsOf,
      dataCountOf, codesOf, datasOf, hasCode_append, hasCode_single, h]
  | memory l =>
    have h := memsOf_nil (hne .Memory rfl (by decide))
    simp only [memsOf] at h
    simp [stateOf, applySection, finishSection, assemble, kind_custom, kind_type, kind_import, kind_function, kind_table, kind_memory, kind_tag,
      kind_global, kind_export, kind_start, kind_element, kind_dataCount, kind_code, kind_data, nonCustom, customsOf, typesOf,
      importsOf, typeIdxsOf, tablesOf, memsOf, tagsOf, globalsOf, exportsOf, startOf, elemsOf,
      dataCountOf, codesOf, datasOf, hasCode_append, hasCode_single, h]
  | tag l =>
    have h := tagsOf_nil (hne .Tag rfl (by decide))
    simp only [tagsOf] at h
    simp [stateOf, applySection, finishSection, assemble, kind_custom, kind_type, kind_import, kind_function, kind_table, kind_memory, kind_tag,
      kind_global, kind_export, kind_start, kind_element, kind_dataCount, kind_code, kind_data, nonCustom, customsOf, typesOf,
      importsOf, typeIdxsOf, tablesOf, memsOf, tagsOf, globalsOf, exportsOf, startOf, elemsOf,
      dataCountOf, codesOf, datasOf, hasCode_append, hasCode_single, h]
  | global l =>
    have h := globalsOf_nil (hne .Global rfl (by decide))
    simp only [globalsOf] at h
    simp [stateOf, applySection, finishSection, assemble, kind_custom, kind_type, kind_import, kind_function, kind_table, kind_memory, kind_tag,
      kind_global, kind_export, kind_start, kind_element, kind_dataCount, kind_code, kind_data, nonCustom, customsOf, typesOf,
      importsOf, typeIdxsOf, tablesOf, memsOf, tagsOf, globalsOf, exportsOf, startOf, elemsOf,
      dataCountOf, codesOf, datasOf, hasCode_append, hasCode_single, h]
  | «export» l =>
    have h := exportsOf_nil (hne .Export rfl (by decide))
    simp only [exportsOf] at h
    simp [stateOf, applySection, finishSection, assemble, kind_custom, kind_type, kind_import, kind_function, kind_table, kind_memory, kind_tag,
      kind_global, kind_export, kind_start, kind_element, kind_dataCount, kind_code, kind_data, nonCustom, customsOf, typesOf,
      importsOf, typeIdxsOf, tablesOf, memsOf, tagsOf, globalsOf, exportsOf, startOf, elemsOf,
      dataCountOf, codesOf, datasOf, hasCode_append, hasCode_single, h]
  | start x =>
    have h := startOf_nil (hne .Start rfl (by decide))
    simp only [startOf, List.head?_eq_none_iff] at h
    simp [stateOf, applySection, finishSection, assemble, kind_custom, kind_type, kind_import, kind_function, kind_table, kind_memory, kind_tag,
      kind_global, kind_export, kind_start, kind_element, kind_dataCount, kind_code, kind_data, nonCustom, customsOf, typesOf,
      importsOf, typeIdxsOf, tablesOf, memsOf, tagsOf, globalsOf, exportsOf, startOf, elemsOf,
      dataCountOf, codesOf, datasOf, hasCode_append, hasCode_single, h]
  | element l =>
    have h := elemsOf_nil (hne .Element rfl (by decide))
    simp only [elemsOf] at h
    simp [stateOf, applySection, finishSection, assemble, kind_custom, kind_type, kind_import, kind_function, kind_table, kind_memory, kind_tag,
      kind_global, kind_export, kind_start, kind_element, kind_dataCount, kind_code, kind_data, nonCustom, customsOf, typesOf,
      importsOf, typeIdxsOf, tablesOf, memsOf, tagsOf, globalsOf, exportsOf, startOf, elemsOf,
      dataCountOf, codesOf, datasOf, hasCode_append, hasCode_single, h]
  | dataCount n =>
    have h := dataCountOf_nil (hne .DataCount rfl (by decide))
    simp only [dataCountOf, List.head?_eq_none_iff] at h
    simp [stateOf, applySection, finishSection, assemble, kind_custom, kind_type, kind_import, kind_function, kind_table, kind_memory, kind_tag,
      kind_global, kind_export, kind_start, kind_element, kind_dataCount, kind_code, kind_data, nonCustom, customsOf, typesOf,
      importsOf, typeIdxsOf, tablesOf, memsOf, tagsOf, globalsOf, exportsOf, startOf, elemsOf,
      dataCountOf, codesOf, datasOf, hasCode_append, hasCode_single, h]
  | code cs =>
    have h := codesOf_nil (hne .Code rfl (by decide))
    have hc : hasCode (pre.map Prod.snd) = false := hasCode_false (hne .Code rfl (by decide))
    have hz := zipWith_fill (typeIdxsOf (pre.map Prod.snd)) cs
    simp only [codesOf] at h
    simp only [typeIdxsOf] at hz
    simp [stateOf, applySection, finishSection, assemble, kind_custom, kind_type, kind_import, kind_function, kind_table, kind_memory, kind_tag,
      kind_global, kind_export, kind_start, kind_element, kind_dataCount, kind_code, kind_data, nonCustom, customsOf, typesOf,
      importsOf, typeIdxsOf, tablesOf, memsOf, tagsOf, globalsOf, exportsOf, startOf, elemsOf,
      dataCountOf, codesOf, datasOf, hasCode_append, hasCode_single, h, hc, hz]
  | data l =>
    have h := datasOf_nil (hne .Data rfl (by decide))
    simp only [datasOf] at h
    simp [stateOf, applySection, finishSection, assemble, kind_custom, kind_type, kind_import, kind_function, kind_table, kind_memory, kind_tag,
      kind_global, kind_export, kind_start, kind_element, kind_dataCount, kind_code, kind_data, nonCustom, customsOf, typesOf,
      importsOf, typeIdxsOf, tablesOf, memsOf, tagsOf, globalsOf, exportsOf, startOf, elemsOf,
      dataCountOf, codesOf, datasOf, hasCode_append, hasCode_single, h]

/-! ### Accumulated conditions -/

theorem typeIdxsOf_append (a b : List Section) : typeIdxsOf (a ++ b) = typeIdxsOf a ++ typeIdxsOf b := by
  simp [typeIdxsOf]
theorem codesOf_append (a b : List Section) : codesOf (a ++ b) = codesOf a ++ codesOf b := by
  simp [codesOf]
theorem datasOf_append (a b : List Section) : datasOf (a ++ b) = datasOf a ++ datasOf b := by
  simp [datasOf]
theorem dataCountOf_append (a b : List Section) : dataCountOf (a ++ b) = (dataCountOf a).or (dataCountOf b) := by
  simp [dataCountOf]

theorem hasCode_iff {ss : List Section} : hasCode ss = true ↔ ∃ s ∈ ss, s.kind = .Code := by
  simp [hasCode]

theorem stateOf_funcs_length {secs : List (UInt32 × Section)} (h : Acceptable (secs.map Prod.snd)) :
    (stateOf secs).module.funcs.length = (typeIdxsOf (secs.map Prod.snd)).length := by
  simp only [stateOf]
  cases hc : hasCode (secs.map Prod.snd) with
  | false => simp
  | true => simp [← h.funcs (hasCode_iff.1 hc)]

theorem stateOf_funcs_length' {secs : List (UInt32 × Section)}
    (h : ∀ s ∈ secs.map Prod.snd, s.kind ≠ .Code) :
    (stateOf secs).module.funcs.length = (typeIdxsOf (secs.map Prod.snd)).length := by
  simp only [stateOf, hasCode_false h]
  simp

theorem Acceptable.nil : Acceptable [] where
  order := by simp [nonCustom]
  funcs := by simp
  dataCount := by simp

theorem exists_code_split {a b : List Section} (ho : Sorted (nonCustom (a ++ b)))
    {k : SectionKind} (hk : k ≠ .Custom) (ha : ∃ s ∈ a, s.kind = k) :
    ∀ s ∈ b, s.kind = .Custom ∨ k.rank < s.kind.rank := by
  intro s hs
  by_cases hc : s.kind = .Custom
  · exact .inl hc
  · obtain ⟨s', hs', rfl⟩ := ha
    rw [nonCustom_append, Sorted, List.pairwise_append] at ho
    exact .inr (ho.2.2 _ (mem_nonCustom hs' hk) _ (mem_nonCustom hs hc))

theorem rank_ne {k k' : SectionKind} (h : k = .Custom ∨ k'.rank < k.rank) (hk : k' ≠ .Custom)
    {k'' : SectionKind} (h' : k''.rank ≤ k'.rank) (hk'' : k'' ≠ .Custom) : k ≠ k'' := by
  rintro rfl
  rcases h with h | h
  · exact hk'' h
  · omega

theorem Acceptable.prefix {a b : List Section} (h : Acceptable (a ++ b)) : Acceptable a := by
  have ho := sorted_iff.2 h.order
  refine ⟨sorted_iff.1 (Sorted.prefix ho), ?_, ?_⟩
  · intro hc
    have hb := exists_code_split ho (by decide) hc
    have := h.funcs (by obtain ⟨s, hs, hk⟩ := hc; exact ⟨s, by simp [hs], hk⟩)
    rw [typeIdxsOf_append, codesOf_append,
      typeIdxsOf_nil (ss := b) (fun s hs => rank_ne (hb s hs) (by decide) (by decide) (by decide)),
      codesOf_nil (ss := b) (fun s hs => rank_ne (hb s hs) (by decide) (by decide) (by decide))] at this
    simpa using this
  · intro hc
    have hb := exists_code_split ho (by decide) hc
    have := h.dataCount (by obtain ⟨s, hs, hk⟩ := hc; exact ⟨s, by simp [hs], hk⟩)
    rw [dataCountOf_append, datasOf_append,
      dataCountOf_nil (ss := b) (fun s hs => rank_ne (hb s hs) (by decide) (by decide) (by decide)),
      datasOf_nil (ss := b) (fun s hs => rank_ne (hb s hs) (by decide) (by decide) (by decide))] at this
    simpa using this

theorem kind_custom_of {s : Section} (h : s.kind = .Custom) : ∃ c, s = .custom c := by
  cases s <;> first | exact ⟨_, rfl⟩ | (simp [Section.kind] at h)

theorem Acceptable.secOk {pre : List (UInt32 × Section)} {s : Section}
    (h : Acceptable (pre.map Prod.snd ++ [s])) : secOk (stateOf pre) s := by
  have ho := sorted_iff.2 h.order
  cases s with
  | code cs =>
    have hb := Sorted.before ho (by simp [Section.kind])
    have hne : ∀ s' ∈ pre.map Prod.snd, s'.kind ≠ .Code := by
      intro s' hs' he
      have := hb s' hs'
      rw [he] at this; simp [Section.kind] at this
    have := h.funcs ⟨.code cs, by simp, rfl⟩
    rw [typeIdxsOf_append, codesOf_append, codesOf_nil hne] at this
    simp only [Wadec.secOk, stateOf_funcs_length' hne]
    simpa [typeIdxsOf, codesOf] using this.symm
  | data ds =>
    have hb := Sorted.before ho (by simp [Section.kind])
    have := h.dataCount ⟨.data ds, by simp, rfl⟩
    rw [dataCountOf_append, datasOf_append, datasOf_nil (by
      intro s' hs' he
      have := hb s' hs'
      rw [he] at this; simp [Section.kind] at this)] at this
    simp only [Wadec.secOk, stateOf, assemble]
    simpa [dataCountOf, datasOf] using this
  | _ => trivial

theorem Acceptable.snoc {pre : List (UInt32 × Section)} {s : Section}
    (h : Acceptable (pre.map Prod.snd)) (ho : Sorted (nonCustom (pre.map Prod.snd ++ [s])))
    (hs : Wadec.secOk (stateOf pre) s) : Acceptable (pre.map Prod.snd ++ [s]) := by
  refine ⟨sorted_iff.1 ho, ?_, ?_⟩
  · rintro ⟨s', hs', hk⟩
    rw [typeIdxsOf_append, codesOf_append]
    by_cases hc : hasCode (pre.map Prod.snd) = true
    · have hb := exists_code_split ho (by decide) (hasCode_iff.1 hc)
      rw [typeIdxsOf_nil (ss := [s]) (fun s hs => rank_ne (hb s hs) (by decide) (by decide) (by decide)),
        codesOf_nil (ss := [s]) (fun s hs => rank_ne (hb s hs) (by decide) (by decide) (by decide))]
      simpa using h.funcs (hasCode_iff.1 hc)
    · have hne : ∀ s' ∈ pre.map Prod.snd, s'.kind ≠ .Code := by
        intro s' hs' he
        exact hc (hasCode_iff.2 ⟨s', hs', he⟩)
      rcases List.mem_append.1 hs' with hs' | hs'
      · exact absurd hk (hne _ hs')
      · simp only [List.mem_singleton] at hs'
        subst hs'
        cases s' with
        | code cs =>
          simp only [Wadec.secOk, stateOf_funcs_length' hne] at hs
          rw [codesOf_nil hne]
          simp [typeIdxsOf, codesOf] at hs ⊢
          omega
        | _ => simp [Section.kind] at hk
  · rintro ⟨s', hs', hk⟩
    rw [dataCountOf_append, datasOf_append]
    by_cases hc : ∃ s' ∈ pre.map Prod.snd, s'.kind = .Data
    · have hb := exists_code_split ho (by decide) hc
      rw [dataCountOf_nil (ss := [s]) (fun s hs => rank_ne (hb s hs) (by decide) (by decide) (by decide)),
        datasOf_nil (ss := [s]) (fun s hs => rank_ne (hb s hs) (by decide) (by decide) (by decide))]
      simpa using h.dataCount hc
    · rcases List.mem_append.1 hs' with hs' | hs'
      · exact absurd ⟨s', hs', hk⟩ hc
      · simp only [List.mem_singleton] at hs'
        subst hs'
        cases s' with
        | data ds =>
          simp only [Wadec.secOk, stateOf, assemble] at hs
          rw [datasOf_nil (by intro s hs he; exact hc ⟨s, hs, he⟩)]
          simpa [dataCountOf, datasOf] using hs
        | _ => simp [Section.kind] at hk

theorem WellFormed.acceptable {ss : List Section} (h : WellFormed ss) : Acceptable ss :=
  ⟨h.order, fun _ => h.funcs, fun _ => h.dataCount⟩

theorem usesData_iff {ss : List Section} :
    (codesOf ss).any (fun c => anyContainsDataIdx c.body) = true ↔
      ∃ c ∈ codesOf ss, ∃ i ∈ c.body, UsesData i := by
  simp only [List.any_eq_true, anyContainsDataIdx_iff]

end Wadec
