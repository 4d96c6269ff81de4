import Verif.Props.Robust
import Verif.Proof.Encode

/-! C36: every module value that satisfies the size and count conditions can be written down, and is
read back. -/

namespace Wadec

open LawfulRead Spec

theorem listSection_flatMap {α β : Type} (f : List α → Section) (l : List α) (g : Section → List β) :
    (listSection f l).flatMap g = if l.isEmpty then [] else g (f l) := by
  unfold listSection; split <;> simp

theorem listSection_filterMap {α β : Type} (f : List α → Section) (l : List α) (g : Section → Option β) :
    (listSection f l).filterMap g = if l.isEmpty then [] else (g (f l)).toList := by
  unfold listSection
  split
  · rfl
  · cases h : g (f l) <;> simp [h]

theorem ite_empty {α : Type} (l : List α) : (if l.isEmpty then [] else l) = l := by
  cases l <;> rfl

theorem customs_flatMap {β : Type} (l : List CustomSection) (g : Section → List β)
    (h : ∀ c, g (.custom c) = []) : (l.map Section.custom).flatMap g = [] := by
  induction l with
  | nil => rfl
  | cons c l ih => simp only [List.map_cons, List.flatMap_cons, h, ih]; rfl

theorem opt_flatMap {α β : Type} (o : Option α) (f : α → Section) (g : Section → List β)
    (h : ∀ c, g (f c) = []) : (o.toList.map f).flatMap g = [] := by
  cases o <;> simp [h]

theorem opt_filterMap {α β : Type} (o : Option α) (f : α → Section) (g : Section → Option β)
    (h : ∀ c, g (f c) = none) : (o.toList.map f).filterMap g = [] := by
  cases o <;> simp [h]

theorem customs_filterMap {β : Type} (l : List CustomSection) (g : Section → Option β)
    (h : ∀ c, g (.custom c) = none) : (l.map Section.custom).filterMap g = [] := by
  induction l with
  | nil => rfl
  | cons c l ih => simp [h]

macro "contrib" : tactic => `(tactic|
  simp [sectionsOf, listSection_flatMap, listSection_filterMap, ite_empty, customs_flatMap,
    opt_flatMap, opt_filterMap, customs_filterMap])

theorem types_sectionsOf (m : Module) : typesOf (sectionsOf m) = m.types := by
  unfold typesOf; contrib
theorem imports_sectionsOf (m : Module) : importsOf (sectionsOf m) = m.imports := by
  unfold importsOf; contrib
theorem typeIdxs_sectionsOf (m : Module) :
    typeIdxsOf (sectionsOf m) = m.funcs.map fun f => f.type := by
  unfold typeIdxsOf; contrib
theorem tables_sectionsOf (m : Module) : tablesOf (sectionsOf m) = m.tables := by
  unfold tablesOf; contrib
theorem mems_sectionsOf (m : Module) : memsOf (sectionsOf m) = m.mems := by
  unfold memsOf; contrib
theorem tags_sectionsOf (m : Module) : tagsOf (sectionsOf m) = m.tags := by
  unfold tagsOf; contrib
theorem globals_sectionsOf (m : Module) : globalsOf (sectionsOf m) = m.globals := by
  unfold globalsOf; contrib
theorem exports_sectionsOf (m : Module) : exportsOf (sectionsOf m) = m.exports := by
  unfold exportsOf; contrib
theorem elems_sectionsOf (m : Module) : elemsOf (sectionsOf m) = m.elems := by
  unfold elemsOf; contrib
theorem codes_sectionsOf (m : Module) :
    codesOf (sectionsOf m) = m.funcs.map fun f => ⟨f.locals, f.body⟩ := by
  unfold codesOf; contrib
theorem datas_sectionsOf (m : Module) : datasOf (sectionsOf m) = m.datas := by
  unfold datasOf; contrib

theorem opt_self {α : Type} (o : Option α) (f : α → Section) (g : Section → Option α)
    (h : ∀ c, g (f c) = some c) : (o.toList.map f).filterMap g = o.toList := by
  cases o <;> simp [h]

theorem customs_self (l : List CustomSection) (g : Section → Option CustomSection)
    (h : ∀ c, g (.custom c) = some c) : (l.map Section.custom).filterMap g = l := by
  induction l with
  | nil => rfl
  | cons c l ih => simp only [List.map_cons, List.filterMap_cons, h, ih]

theorem start_sectionsOf (m : Module) : startOf (sectionsOf m) = m.start := by
  unfold startOf sectionsOf
  simp only [List.filterMap_append, listSection_filterMap, Option.toList_none, ite_self,
    List.nil_append, List.append_nil]
  rw [customs_filterMap _ _ fun _ => rfl, opt_self m.start .start _ fun _ => rfl,
    opt_filterMap m.data_count _ _ fun _ => rfl]
  cases m.start <;> rfl

theorem dataCount_sectionsOf (m : Module) : dataCountOf (sectionsOf m) = m.data_count := by
  unfold dataCountOf sectionsOf
  simp only [List.filterMap_append, listSection_filterMap, Option.toList_none, ite_self,
    List.nil_append, List.append_nil]
  rw [customs_filterMap _ _ fun _ => rfl, opt_self m.data_count .dataCount _ fun _ => rfl,
    opt_filterMap m.start _ _ fun _ => rfl]
  cases m.data_count <;> rfl

theorem customs_sectionsOf (m : Module) : customsOf (sectionsOf m) = m.custom_sections := by
  unfold customsOf sectionsOf
  simp only [List.filterMap_append, listSection_filterMap, Option.toList_none, ite_self,
    List.nil_append, List.append_nil]
  rw [customs_self _ _ fun _ => rfl, opt_filterMap m.start _ _ fun _ => rfl,
    opt_filterMap m.data_count _ _ fun _ => rfl]
  simp

theorem order_list {α : Type} {f : List α → Section} {l : List α} {k : SectionKind}
    (h : ∀ l, (f l).kind = k) : List.Sublist (nonCustom (listSection f l)) [k] := by
  unfold listSection nonCustom
  split
  · simp
  · simp only [List.map_cons, List.map_nil, h]
    exact List.filter_sublist

theorem order_opt {α : Type} {f : α → Section} {o : Option α} {k : SectionKind}
    (h : ∀ l, (f l).kind = k) : List.Sublist (nonCustom (o.toList.map f)) [k] := by
  unfold nonCustom
  cases o with
  | none => simp
  | some x =>
    simp only [Option.toList_some, List.map_cons, List.map_nil, h]
    exact List.filter_sublist

theorem order_customs (l : List CustomSection) : nonCustom (l.map .custom) = [] := by
  simp [nonCustom, Section.kind]

theorem order_sectionsOf (m : Module) : List.Sublist (nonCustom (sectionsOf m)) sectionOrder := by
  unfold sectionsOf
  simp only [nonCustom_append, order_customs, List.nil_append]
  refine List.Sublist.append (l₂ := [.Type]) (order_list (f := .type) fun _ => rfl) ?_
  refine List.Sublist.append (l₂ := [.Import]) (order_list (f := .import) fun _ => rfl) ?_
  refine List.Sublist.append (l₂ := [.Function]) (order_list (f := .function) fun _ => rfl) ?_
  refine List.Sublist.append (l₂ := [.Table]) (order_list (f := .table) fun _ => rfl) ?_
  refine List.Sublist.append (l₂ := [.Memory]) (order_list (f := .memory) fun _ => rfl) ?_
  refine List.Sublist.append (l₂ := [.Tag]) (order_list (f := .tag) fun _ => rfl) ?_
  refine List.Sublist.append (l₂ := [.Global]) (order_list (f := .global) fun _ => rfl) ?_
  refine List.Sublist.append (l₂ := [.Export]) (order_list (f := .export) fun _ => rfl) ?_
  refine List.Sublist.append (l₂ := [.Start]) (order_opt (f := .start) fun _ => rfl) ?_
  refine List.Sublist.append (l₂ := [.Element]) (order_list (f := .element) fun _ => rfl) ?_
  refine List.Sublist.append (l₂ := [.DataCount]) (order_opt (f := .dataCount) fun _ => rfl) ?_
  exact List.Sublist.append (l₂ := [.Code]) (order_list (f := .code) fun _ => rfl)
    (order_list (f := .data) fun _ => rfl)

theorem wf_sectionsOf {m : Module} (h : Writable m) : WellFormed (sectionsOf m) := by
  refine ⟨order_sectionsOf m, ?_, ?_, ?_⟩
  · rw [typeIdxs_sectionsOf, codes_sectionsOf]; simp
  · rw [dataCount_sectionsOf, datas_sectionsOf]; exact h.dataCount
  · rw [dataCount_sectionsOf, codes_sectionsOf]
    rintro ⟨c, hc, i, hi, hu⟩
    obtain ⟨f, hf, rfl⟩ := List.mem_map.1 hc
    exact h.dataIdx ⟨f, hf, i, hi, hu⟩

theorem sized_map (ss : List Section) : (ss.map sized).map Prod.snd = ss := by
  rw [List.map_map]
  exact List.map_id' ss

theorem assemble_sectionsOf {m : Module} (h : Writable m) :
    assemble ((sectionsOf m).map sized) = { m with
      parsed_section_kinds := nonCustom (sectionsOf m), section_headers := headersOf m } := by
  simp only [assemble]
  rw [sized_map, types_sectionsOf, imports_sectionsOf, typeIdxs_sectionsOf, tables_sectionsOf,
    mems_sectionsOf, tags_sectionsOf, globals_sectionsOf, exports_sectionsOf, elems_sectionsOf,
    codes_sectionsOf, datas_sectionsOf, start_sectionsOf, dataCount_sectionsOf, customs_sectionsOf,
    ← h.version]
  have hf : List.zipWith mkFunc (m.funcs.map fun f => f.type)
      (m.funcs.map fun f => (⟨f.locals, f.body⟩ : CodeEntry)) = m.funcs := by
    generalize m.funcs = fs
    induction fs with
    | nil => rfl
    | cons f fs ih => simp only [List.map_cons, List.zipWith_cons_cons, ih]; rfl
  rw [hf]
  simp [headersOf, sized, Function.comp_def]

/-- C36: the canonical encoding of a writable module value is a well-formed binary module, and
denotes that value (with the header list that describes this encoding). -/
theorem c36_encodes {m : Module} (h : Writable m) : BModule (encModule m) { m with
    parsed_section_kinds := nonCustom (sectionsOf m), section_headers := headersOf m } := by
  rw [← assemble_sectionsOf h]
  exact .mk (encSections_ok h.sections) (by rw [sized_map]; exact wf_sectionsOf h)

/-- C36: it is accepted, and read back with every field intact; only the record of section kinds
and headers is that of the encoding. -/
theorem c36_roundtrip {R : Type} [LawfulRead R] {m : Module} (h : Writable m) {r : R}
    (ha : avail r = encModule m) (hf : fin r = .eof) :
    ∃ r', decodeModule r = (.ok { m with
      parsed_section_kinds := nonCustom (sectionsOf m), section_headers := headersOf m }, r') :=
  c18_complete (by rw [ha]; exact c36_encodes h) hf

/-- C36: a module value whose header record is already that of its canonical encoding is read back
exactly. -/
theorem c36_exact {R : Type} [LawfulRead R] {m : Module} (h : Writable m)
    (h1 : m.parsed_section_kinds = nonCustom (sectionsOf m)) (h2 : m.section_headers = headersOf m)
    {r : R} (ha : avail r = encModule m) (hf : fin r = .eof) :
    ∃ r', decodeModule r = (.ok m, r') := by
  have := c36_roundtrip h ha hf
  rwa [← h1, ← h2] at this

/-! ### What has been decoded can be written down again -/

theorem aligned_leaf {op : Opcode} {imms : Bytes} {i : Instr} (h : Leaf op imms i) : Aligned i := by
  have hm : ∀ {b m}, BMemarg b m → m.align.toNat < 64 := by
    intro b m h
    cases h with
    | mem0 _ h _ => exact h
    | memx _ h1 h2 h3 _ _ => simp only; omega
  cases h with
  | mem h => exact .mem (hm h)
  | memLane h _ => exact .memLane (hm h)
  | _ => exact .leaf (by intros; simp) (by intros; simp) (by simp [encLeaf])

mutual
theorem aligned_instr : ∀ {i : Instr} {b : Bytes}, BInstr b i → Aligned i
  | _, _, .leaf _ h => aligned_leaf h
  | _, _, .block _ h => .block (aligned_instrs h)
  | _, _, .loop _ h => .loop (aligned_instrs h)
  | _, _, .if _ h => .if (aligned_instrs h)
  | _, _, .ifElse _ h1 h2 => .ifElse (aligned_instrs h1) (aligned_instrs h2)
  | _, _, .tryTable _ _ h => .tryTable (aligned_instrs h)
theorem aligned_instrs : ∀ {is : List Instr} {b : Bytes}, BInstrs b is → ∀ i ∈ is, Aligned i
  | _, _, .nil => by simp
  | _, _, .cons h hs => by
    have h1 := aligned_instr h
    have h2 := aligned_instrs hs
    intro j hj
    rcases List.mem_cons.1 hj with rfl | hj
    · exact h1
    · exact h2 j hj
end

theorem aligned_expr {e : Expr} {b : Bytes} (h : BExpr b e) : AlignedExpr e := by
  cases h with | mk h => exact aligned_instrs h

theorem BList.mem {α : Type} {B : Bytes → α → Prop} {b : Bytes} {l : List α} (h : BList B b l) :
    ∀ x ∈ l, ∃ c, B c x := by
  cases h with
  | mk h0 h =>
    clear h0
    induction h with
    | nil => simp
    | cons h _ ih =>
      intro x hx
      rcases List.mem_cons.1 hx with rfl | hx
      · exact ⟨_, h⟩
      · exact ih x hx

theorem encodable_contents {s : Section} {b : Bytes} (h : BContents b s) : Encodable s := by
  cases h with
  | custom h => cases h with | mk h => exact h.2
  | «import» h =>
    intro i hi
    obtain ⟨c, hc⟩ := BList.mem h i hi
    cases hc with | mk h1 h2 _ => exact ⟨h1.2, h2.2⟩
  | table h =>
    intro i hi
    obtain ⟨c, hc⟩ := BList.mem h i hi
    cases hc with
    | type _ =>
      intro j hj
      cases List.mem_singleton.1 hj
      exact .leaf (by intros; simp) (by intros; simp) (by simp [encLeaf])
    | init _ h => exact aligned_expr h
  | global h =>
    intro i hi
    obtain ⟨c, hc⟩ := BList.mem h i hi
    cases hc with | mk _ h => exact aligned_expr h
  | «export» h =>
    intro i hi
    obtain ⟨c, hc⟩ := BList.mem h i hi
    cases hc with | mk h1 _ => exact h1.2
  | element h =>
    intro i hi
    obtain ⟨c, hc⟩ := BList.mem h i hi
    have hrf : ∀ ys, ∀ x ∈ refFuncs ys, AlignedExpr x := by
      intro ys x hx
      obtain ⟨y, _, rfl⟩ := List.mem_map.1 hx
      intro j hj
      cases List.mem_singleton.1 hj
      exact .leaf (by intros; simp) (by intros; simp) (by simp [encLeaf])
    have hes : ∀ {b es}, BList BExpr b es → ∀ x ∈ es, AlignedExpr x := by
      intro b es h x hx
      obtain ⟨c, hc⟩ := BList.mem h x hx
      exact aligned_expr hc
    cases hc with
    | active0 _ h _ => exact ⟨hrf _, fun x o e => by cases e; exact aligned_expr h⟩
    | passive _ _ => exact ⟨hrf _, fun x o e => by cases e⟩
    | active _ _ h _ => exact ⟨hrf _, fun x o e => by cases e; exact aligned_expr h⟩
    | declare _ _ => exact ⟨hrf _, fun x o e => by cases e⟩
    | active0Expr _ h hs => exact ⟨hes hs, fun x o e => by cases e; exact aligned_expr h⟩
    | passiveExpr _ _ hs => exact ⟨hes hs, fun x o e => by cases e⟩
    | activeExpr _ _ h _ hs => exact ⟨hes hs, fun x o e => by cases e; exact aligned_expr h⟩
    | declareExpr _ _ hs => exact ⟨hes hs, fun x o e => by cases e⟩
  | code h =>
    intro i hi
    obtain ⟨c, hc⟩ := BList.mem h i hi
    cases hc with
    | mk _ hf => cases hf with | mk _ h hl => exact ⟨hl, aligned_expr h⟩
  | data h =>
    intro i hi
    obtain ⟨c, hc⟩ := BList.mem h i hi
    cases hc with
    | active0 _ h _ => exact fun x o e => by cases e; exact aligned_expr h
    | passive _ _ => exact fun x o e => by cases e
    | active _ _ h _ => exact fun x o e => by cases e; exact aligned_expr h
  | _ => trivial

theorem encodable_secs {b : Bytes} {secs : List (UInt32 × Section)} (h : BSeq BSection b secs) :
    ∀ s ∈ secs.map Prod.snd, Encodable s := by
  induction h with
  | nil => simp
  | cons h _ ih =>
    intro s hs
    rcases List.mem_cons.1 hs with rfl | hs
    · cases h with | mk _ _ hc => exact encodable_contents hc
    · exact ih s hs

theorem mem_listSection {α : Type} {f : List α → Section} {l : List α} {s : Section} :
    s ∈ listSection f l → s = f l := by
  unfold listSection; split <;> simp

theorem encodable_sectionsOf {secs : List (UInt32 × Section)}
    (h : ∀ s ∈ secs.map Prod.snd, Encodable s) : ∀ s ∈ sectionsOf (assemble secs), Encodable s := by
  intro s hs
  simp only [sectionsOf, List.mem_append, List.mem_map] at hs
  rcases hs with ⟨c, hc, rfl⟩ | hs | hs | hs | hs | hs | hs | hs | hs | ⟨x, _, rfl⟩ | hs | ⟨x, _, rfl⟩ |
    hs | hs
  · obtain ⟨t, ht, he⟩ := List.mem_filterMap.1 hc
    cases t <;> simp only [Option.some.injEq, reduceCtorEq] at he
    subst he
    exact h _ ht
  · rw [mem_listSection hs]; trivial
  · rw [mem_listSection hs]
    intro i hi
    obtain ⟨t, ht, he⟩ := List.mem_flatMap.1 hi
    cases t <;> simp only [List.not_mem_nil] at he
    exact h _ ht _ he
  · rw [mem_listSection hs]; trivial
  · rw [mem_listSection hs]
    intro i hi
    obtain ⟨t, ht, he⟩ := List.mem_flatMap.1 hi
    cases t <;> simp only [List.not_mem_nil] at he
    exact h _ ht _ he
  · rw [mem_listSection hs]; trivial
  · rw [mem_listSection hs]; trivial
  · rw [mem_listSection hs]
    intro i hi
    obtain ⟨t, ht, he⟩ := List.mem_flatMap.1 hi
    cases t <;> simp only [List.not_mem_nil] at he
    exact h _ ht _ he
  · rw [mem_listSection hs]
    intro i hi
    obtain ⟨t, ht, he⟩ := List.mem_flatMap.1 hi
    cases t <;> simp only [List.not_mem_nil] at he
    exact h _ ht _ he
  · trivial
  · rw [mem_listSection hs]
    intro i hi
    obtain ⟨t, ht, he⟩ := List.mem_flatMap.1 hi
    cases t <;> simp only [List.not_mem_nil] at he
    exact h _ ht _ he
  · trivial
  · rw [mem_listSection hs]
    intro i hi
    obtain ⟨f, hf, rfl⟩ := List.mem_map.1 hi
    obtain ⟨j, hj⟩ := List.mem_iff_getElem?.1 hf
    have hc := List.mem_of_getElem? (zipWith_mkFunc_get hj).2
    obtain ⟨t, ht, he⟩ := List.mem_flatMap.1 hc
    cases t <;> simp only [List.not_mem_nil] at he
    exact h _ ht _ he
  · rw [mem_listSection hs]
    intro i hi
    obtain ⟨t, ht, he⟩ := List.mem_flatMap.1 hi
    cases t <;> simp only [List.not_mem_nil] at he
    exact h _ ht _ he

/-- C36: everything that has been decoded can be written down, unless its canonical encoding has a
section of 2^32 bytes or more. -/
theorem c36_writable {R : Type} [LawfulRead R] {r r' : R} {m : Module}
    (h : decodeModule r = (.ok m, r')) (hl : ∀ s ∈ sectionsOf m, (encContents s).length < 2 ^ 32) :
    Writable m := by
  have hd := c27_count h
  have hi := c28_required h
  have hm := c17_sound h
  generalize avail r = bs at hm
  cases hm with
  | mk hb hw => exact ⟨rfl, fun s hs => ⟨encodable_sectionsOf (encodable_secs hb) s hs, hl s hs⟩, hd, hi⟩

/-- C36: re-encoding a decoded module and decoding again gives the same contents, provided the
canonical sections stay below 2^32 bytes. -/
theorem c36_reencode {R S : Type} [LawfulRead R] [LawfulRead S] {r r' : R} {m : Module}
    (h : decodeModule r = (.ok m, r')) (hl : ∀ s ∈ sectionsOf m, (encContents s).length < 2 ^ 32)
    {s : S} (ha : avail s = encModule m) (hf : fin s = .eof) :
    ∃ s', decodeModule s = (.ok { m with
      parsed_section_kinds := nonCustom (sectionsOf m), section_headers := headersOf m }, s') :=
  c36_roundtrip (c36_writable h hl) ha hf

/-! ### Instances -/

/-- The sample module is writable. -/
theorem writableA : Writable (assemble secsA) := by
  refine c36_writable modA.choose_spec ?_
  intro s hs
  have : ∀ s ∈ sectionsOf (assemble secsA), (encContents s).length < 2 ^ 32 := by decide +kernel
  exact this s hs

example : ∃ r', decodeModule (Src.ofBytes (encModule (assemble secsA))) = (.ok { assemble secsA with
    section_headers := headersOf (assemble secsA) }, r') :=
  c36_roundtrip writableA (avail_ofBytes _) (fin_ofBytes _)

/-- Runs of locals are grouped, also up to 2^32 − 1 of them. -/
example : runsOf (List.replicate 3 (.Num .Int32) ++ [.Vec .V128]) =
    [(3, .Num .Int32), (1, .Vec .V128)] := rfl

end Wadec
