import Verif.Proof.Splice

/-! Proofs for C76: inserting and removing sections. -/

namespace Wadec

open Spec LawfulRead

theorem past {α : Type} {g : Section → List α} {a c : List Section} {s : Section} (h : g s = []) :
    (a ++ s :: c).flatMap g = (a ++ c).flatMap g := by
  simp [h]

theorem pastOpt {α : Type} {g : Section → Option α} {a c : List Section} {s : Section} (h : g s = none) :
    (a ++ s :: c).filterMap g = (a ++ c).filterMap g := by
  simp [List.filterMap_cons, h]

theorem kinds_insert {a c : List Section} {s : Section} (h : s.kind ≠ .Custom) :
    nonCustom (a ++ s :: c) = nonCustom a ++ s.kind :: nonCustom c := by
  simp [nonCustom, h]

theorem kinds_append {a c : List Section} : nonCustom (a ++ c) = nonCustom a ++ nonCustom c := by
  simp [nonCustom]

theorem order_remove {a c : List SectionKind} {k : SectionKind} (h : List.Sublist (a ++ k :: c) sectionOrder) :
    List.Sublist (a ++ c) sectionOrder :=
  (List.Sublist.append_left (List.sublist_cons_self k c) a).trans h

/-- Closes an equation between what two modules contain, one of which has a section more. -/
macro "pasts" : tactic => `(tactic|
  first
  | rfl
  | exact trivial
  | exact past rfl
  | exact pastOpt rfl
  | exact congrArg List.head? (pastOpt rfl)
  | exact zipBoth (past rfl) (past rfl))

/-- A section that the side conditions do not mention can be inserted and removed. -/
theorem wf_insert {a c : List Section} {s : Section} (hk : s.kind ≠ .Custom) (h1 : typeIdxsOf [s] = []) (h2 : codesOf [s] = [])
    (h3 : datasOf [s] = []) (h4 : dataCountOf [s] = none) :
    WellFormed (a ++ s :: c) ↔ WellFormed (a ++ c) ∧ List.Sublist (nonCustom a ++ s.kind :: nonCustom c) sectionOrder := by
  simp only [typeIdxsOf, codesOf, datasOf, List.flatMap_cons, List.flatMap_nil, List.append_nil] at h1 h2 h3
  have e1 : typeIdxsOf (a ++ s :: c) = typeIdxsOf (a ++ c) := past h1
  have e2 : codesOf (a ++ s :: c) = codesOf (a ++ c) := past h2
  have e3 : datasOf (a ++ s :: c) = datasOf (a ++ c) := past h3
  have e4 : dataCountOf (a ++ s :: c) = dataCountOf (a ++ c) := by
    refine congrArg List.head? (pastOpt ?_)
    cases s <;> first | rfl | simp [dataCountOf] at h4
  constructor
  · intro h
    have ho := h.order
    rw [kinds_insert hk] at ho
    exact ⟨⟨by rw [kinds_append]; exact order_remove ho, by rw [← e1, ← e2]; exact h.funcs, by rw [← e3, ← e4]; exact h.dataCount,
      by rw [← e2, ← e4]; exact h.dataIdx⟩, ho⟩
  · rintro ⟨h, ho⟩
    exact ⟨by rw [kinds_insert hk]; exact ho, by rw [e1, e2]; exact h.funcs, by rw [e3, e4]; exact h.dataCount,
      by rw [e2, e4]; exact h.dataIdx⟩

/-- What `SectionEdit` says about a section is right. -/
structure Addable (E : SectionEdit) : Prop where
  kind : E.contents.kind ≠ .Custom
  adds : ∀ {a c z}, WellFormed ((a ++ c).map Prod.snd) → WellFormed ((a ++ (z, E.contents) :: c).map Prod.snd) →
    assemble (a ++ (z, E.contents) :: c) = record a E.contents.kind z (E.add (assemble (a ++ c)))
  gone : ∀ {a c z}, WellFormed ((a ++ (z, E.contents) :: c).map Prod.snd) → E.remove (assemble (a ++ c)) = assemble (a ++ c)
  undo : ∀ {a k z m}, E.remove (record a k z (E.add m)) = record a k z (E.remove m)
  may : ∀ {a c : List (UInt32 × Section)} {z}, WellFormed ((a ++ c).map Prod.snd) →
    List.Sublist (nonCustom (a.map Prod.snd) ++ E.contents.kind :: nonCustom (c.map Prod.snd)) sectionOrder →
    (WellFormed ((a ++ (z, E.contents) :: c).map Prod.snd) ↔ E.mayAdd (assemble (a ++ c)))
  mayNot : ∀ {a c z}, WellFormed ((a ++ (z, E.contents) :: c).map Prod.snd) →
    (WellFormed ((a ++ c).map Prod.snd) ↔ E.mayRemove (assemble (a ++ (z, E.contents) :: c)))

theorem insert_behind {α : Type} {x : α} {c : List α} : ∀ {a : List α} {n : Nat}, n = a.length → (a ++ c).insertIdx n x = a ++ x :: c
  | [], _, rfl => by simp
  | y :: a, _, rfl => by
    have := insert_behind (x := x) (c := c) (a := a) rfl
    simp only [List.cons_append, List.length_cons, List.insertIdx_succ_cons, this]

theorem unrecord_record (a : List (UInt32 × Section)) (k : SectionKind) (z : UInt32) (m : Module) : unrecord a (record a k z m) = m := by
  simp [unrecord, record]

theorem recorded_kinds {a c : List (UInt32 × Section)} {s : Section} (hk : s.kind ≠ .Custom) :
    nonCustom (a.map Prod.snd ++ s :: c.map Prod.snd) =
      (nonCustom (a.map Prod.snd ++ c.map Prod.snd)).insertIdx (nonCustom (a.map Prod.snd)).length s.kind := by
  rw [kinds_insert hk, kinds_append, insert_behind rfl]

theorem recorded_headers {a c : List (UInt32 × Section)} {x : UInt32 × Section} {f : UInt32 × Section → SectionHeader} :
    a.map f ++ f x :: c.map f = (a.map f ++ c.map f).insertIdx a.length (f x) := by
  rw [insert_behind (by simp)]

theorem lone_opt {α : Type} {g : Section → Option α} {a c : List Section} {s : Section} {x : α} (hg : ∀ z, z.kind ≠ s.kind → g z = none)
    (hx : g s = some x) (h : List.Sublist (nonCustom (a ++ s :: c)) sectionOrder) (hk : s.kind ≠ .Custom) :
    ((a ++ s :: c).filterMap g).head? = some x ∧ ((a ++ c).filterMap g).head? = none := by
  obtain ⟨ha, hc⟩ := alone h hk
  have e1 : a.filterMap g = [] := List.filterMap_eq_nil_iff.2 fun z hz => hg z (ha z hz)
  have e2 : c.filterMap g = [] := List.filterMap_eq_nil_iff.2 fun z hz => hg z (hc z hz)
  simp [List.filterMap_cons, e1, e2, hx]

theorem lone_list {α : Type} {g : Section → List α} {a c : List Section} {s : Section} (hg : ∀ z, z.kind ≠ s.kind → g z = [])
    (h : List.Sublist (nonCustom (a ++ s :: c)) sectionOrder) (hk : s.kind ≠ .Custom) : (a ++ c).flatMap g = [] := by
  obtain ⟨ha, hc⟩ := alone h hk
  rw [List.flatMap_append, List.append_eq_nil_iff]
  exact ⟨List.flatMap_eq_nil_iff.2 fun z hz => hg z (ha z hz), List.flatMap_eq_nil_iff.2 fun z hz => hg z (hc z hz)⟩

theorem addable_types (l) : Addable (insTypes l) where
  kind := nofun
  adds {a c z} _ h := by
    simp only [insTypes, List.map_append, List.map_cons] at h
    simp only [assemble, insTypes, record, List.map_append, List.map_cons, Module.mk.injEq]
    refine ⟨?_, recorded_kinds (s := .type l) nofun, recorded_headers (x := (z, .type l)), ?_, ?_, ?_, ?_, ?_, ?_, ?_, ?_, ?_, ?_, ?_, ?_, ?_⟩ <;>
      first | pasts | exact types_lone h.order
  gone {a c z} h := by
    simp only [insTypes, List.map_append, List.map_cons] at h ⊢
    have e : typesOf (a.map Prod.snd ++ c.map Prod.snd) = [] := by
      unfold typesOf
      exact lone_list (s := .type l) (fun z hz => by cases z <;> first | rfl | exact absurd rfl hz) h.order nofun
    simp only [assemble, List.map_append, e]
  undo := rfl
  may h ho := by
    simp only [insTypes, List.map_append, List.map_cons] at h ho ⊢
    exact ⟨fun _ => trivial, fun _ => (wf_insert (s := .type l) nofun rfl rfl rfl rfl).2 ⟨h, ho⟩⟩
  mayNot h := by
    simp only [insTypes, List.map_append, List.map_cons] at h ⊢
    exact ⟨fun _ => trivial, fun _ => ((wf_insert (s := .type l) nofun rfl rfl rfl rfl).1 h).1⟩

theorem addable_imports (l) : Addable (insImports l) where
  kind := nofun
  adds {a c z} _ h := by
    simp only [insImports, List.map_append, List.map_cons] at h
    simp only [assemble, insImports, record, List.map_append, List.map_cons, Module.mk.injEq]
    refine ⟨?_, recorded_kinds (s := .import l) nofun, recorded_headers (x := (z, .import l)), ?_, ?_, ?_, ?_, ?_, ?_, ?_, ?_, ?_, ?_, ?_, ?_, ?_⟩ <;>
      first | pasts | exact imports_lone h.order
  gone {a c z} h := by
    simp only [insImports, List.map_append, List.map_cons] at h ⊢
    have e : importsOf (a.map Prod.snd ++ c.map Prod.snd) = [] := by
      unfold importsOf
      exact lone_list (s := .import l) (fun z hz => by cases z <;> first | rfl | exact absurd rfl hz) h.order nofun
    simp only [assemble, List.map_append, e]
  undo := rfl
  may h ho := by
    simp only [insImports, List.map_append, List.map_cons] at h ho ⊢
    exact ⟨fun _ => trivial, fun _ => (wf_insert (s := .import l) nofun rfl rfl rfl rfl).2 ⟨h, ho⟩⟩
  mayNot h := by
    simp only [insImports, List.map_append, List.map_cons] at h ⊢
    exact ⟨fun _ => trivial, fun _ => ((wf_insert (s := .import l) nofun rfl rfl rfl rfl).1 h).1⟩

theorem addable_tables (l) : Addable (insTables l) where
  kind := nofun
  adds {a c z} _ h := by
    simp only [insTables, List.map_append, List.map_cons] at h
    simp only [assemble, insTables, record, List.map_append, List.map_cons, Module.mk.injEq]
    refine ⟨?_, recorded_kinds (s := .table l) nofun, recorded_headers (x := (z, .table l)), ?_, ?_, ?_, ?_, ?_, ?_, ?_, ?_, ?_, ?_, ?_, ?_, ?_⟩ <;>
      first | pasts | exact tables_lone h.order
  gone {a c z} h := by
    simp only [insTables, List.map_append, List.map_cons] at h ⊢
    have e : tablesOf (a.map Prod.snd ++ c.map Prod.snd) = [] := by
      unfold tablesOf
      exact lone_list (s := .table l) (fun z hz => by cases z <;> first | rfl | exact absurd rfl hz) h.order nofun
    simp only [assemble, List.map_append, e]
  undo := rfl
  may h ho := by
    simp only [insTables, List.map_append, List.map_cons] at h ho ⊢
    exact ⟨fun _ => trivial, fun _ => (wf_insert (s := .table l) nofun rfl rfl rfl rfl).2 ⟨h, ho⟩⟩
  mayNot h := by
    simp only [insTables, List.map_append, List.map_cons] at h ⊢
    exact ⟨fun _ => trivial, fun _ => ((wf_insert (s := .table l) nofun rfl rfl rfl rfl).1 h).1⟩

theorem addable_mems (l) : Addable (insMems l) where
  kind := nofun
  adds {a c z} _ h := by
    simp only [insMems, List.map_append, List.map_cons] at h
    simp only [assemble, insMems, record, List.map_append, List.map_cons, Module.mk.injEq]
    refine ⟨?_, recorded_kinds (s := .memory l) nofun, recorded_headers (x := (z, .memory l)), ?_, ?_, ?_, ?_, ?_, ?_, ?_, ?_, ?_, ?_, ?_, ?_, ?_⟩ <;>
      first | pasts | exact mems_lone h.order
  gone {a c z} h := by
    simp only [insMems, List.map_append, List.map_cons] at h ⊢
    have e : memsOf (a.map Prod.snd ++ c.map Prod.snd) = [] := by
      unfold memsOf
      exact lone_list (s := .memory l) (fun z hz => by cases z <;> first | rfl | exact absurd rfl hz) h.order nofun
    simp only [assemble, List.map_append, e]
  undo := rfl
  may h ho := by
    simp only [insMems, List.map_append, List.map_cons] at h ho ⊢
    exact ⟨fun _ => trivial, fun _ => (wf_insert (s := .memory l) nofun rfl rfl rfl rfl).2 ⟨h, ho⟩⟩
  mayNot h := by
    simp only [insMems, List.map_append, List.map_cons] at h ⊢
    exact ⟨fun _ => trivial, fun _ => ((wf_insert (s := .memory l) nofun rfl rfl rfl rfl).1 h).1⟩

theorem addable_tags (l) : Addable (insTags l) where
  kind := nofun
  adds {a c z} _ h := by
    simp only [insTags, List.map_append, List.map_cons] at h
    simp only [assemble, insTags, record, List.map_append, List.map_cons, Module.mk.injEq]
    refine ⟨?_, recorded_kinds (s := .tag l) nofun, recorded_headers (x := (z, .tag l)), ?_, ?_, ?_, ?_, ?_, ?_, ?_, ?_, ?_, ?_, ?_, ?_, ?_⟩ <;>
      first | pasts | exact tags_lone h.order
  gone {a c z} h := by
    simp only [insTags, List.map_append, List.map_cons] at h ⊢
    have e : tagsOf (a.map Prod.snd ++ c.map Prod.snd) = [] := by
      unfold tagsOf
      exact lone_list (s := .tag l) (fun z hz => by cases z <;> first | rfl | exact absurd rfl hz) h.order nofun
    simp only [assemble, List.map_append, e]
  undo := rfl
  may h ho := by
    simp only [insTags, List.map_append, List.map_cons] at h ho ⊢
    exact ⟨fun _ => trivial, fun _ => (wf_insert (s := .tag l) nofun rfl rfl rfl rfl).2 ⟨h, ho⟩⟩
  mayNot h := by
    simp only [insTags, List.map_append, List.map_cons] at h ⊢
    exact ⟨fun _ => trivial, fun _ => ((wf_insert (s := .tag l) nofun rfl rfl rfl rfl).1 h).1⟩

theorem addable_globals (l) : Addable (insGlobals l) where
  kind := nofun
  adds {a c z} _ h := by
    simp only [insGlobals, List.map_append, List.map_cons] at h
    simp only [assemble, insGlobals, record, List.map_append, List.map_cons, Module.mk.injEq]
    refine ⟨?_, recorded_kinds (s := .global l) nofun, recorded_headers (x := (z, .global l)), ?_, ?_, ?_, ?_, ?_, ?_, ?_, ?_, ?_, ?_, ?_, ?_, ?_⟩ <;>
      first | pasts | exact globals_lone h.order
  gone {a c z} h := by
    simp only [insGlobals, List.map_append, List.map_cons] at h ⊢
    have e : globalsOf (a.map Prod.snd ++ c.map Prod.snd) = [] := by
      unfold globalsOf
      exact lone_list (s := .global l) (fun z hz => by cases z <;> first | rfl | exact absurd rfl hz) h.order nofun
    simp only [assemble, List.map_append, e]
  undo := rfl
  may h ho := by
    simp only [insGlobals, List.map_append, List.map_cons] at h ho ⊢
    exact ⟨fun _ => trivial, fun _ => (wf_insert (s := .global l) nofun rfl rfl rfl rfl).2 ⟨h, ho⟩⟩
  mayNot h := by
    simp only [insGlobals, List.map_append, List.map_cons] at h ⊢
    exact ⟨fun _ => trivial, fun _ => ((wf_insert (s := .global l) nofun rfl rfl rfl rfl).1 h).1⟩

theorem addable_exports (l) : Addable (insExports l) where
  kind := nofun
  adds {a c z} _ h := by
    simp only [insExports, List.map_append, List.map_cons] at h
    simp only [assemble, insExports, record, List.map_append, List.map_cons, Module.mk.injEq]
    refine ⟨?_, recorded_kinds (s := .export l) nofun, recorded_headers (x := (z, .export l)), ?_, ?_, ?_, ?_, ?_, ?_, ?_, ?_, ?_, ?_, ?_, ?_, ?_⟩ <;>
      first | pasts | exact exports_lone h.order
  gone {a c z} h := by
    simp only [insExports, List.map_append, List.map_cons] at h ⊢
    have e : exportsOf (a.map Prod.snd ++ c.map Prod.snd) = [] := by
      unfold exportsOf
      exact lone_list (s := .export l) (fun z hz => by cases z <;> first | rfl | exact absurd rfl hz) h.order nofun
    simp only [assemble, List.map_append, e]
  undo := rfl
  may h ho := by
    simp only [insExports, List.map_append, List.map_cons] at h ho ⊢
    exact ⟨fun _ => trivial, fun _ => (wf_insert (s := .export l) nofun rfl rfl rfl rfl).2 ⟨h, ho⟩⟩
  mayNot h := by
    simp only [insExports, List.map_append, List.map_cons] at h ⊢
    exact ⟨fun _ => trivial, fun _ => ((wf_insert (s := .export l) nofun rfl rfl rfl rfl).1 h).1⟩

theorem addable_elems (l) : Addable (insElems l) where
  kind := nofun
  adds {a c z} _ h := by
    simp only [insElems, List.map_append, List.map_cons] at h
    simp only [assemble, insElems, record, List.map_append, List.map_cons, Module.mk.injEq]
    refine ⟨?_, recorded_kinds (s := .element l) nofun, recorded_headers (x := (z, .element l)), ?_, ?_, ?_, ?_, ?_, ?_, ?_, ?_, ?_, ?_, ?_, ?_, ?_⟩ <;>
      first | pasts | exact elems_lone h.order
  gone {a c z} h := by
    simp only [insElems, List.map_append, List.map_cons] at h ⊢
    have e : elemsOf (a.map Prod.snd ++ c.map Prod.snd) = [] := by
      unfold elemsOf
      exact lone_list (s := .element l) (fun z hz => by cases z <;> first | rfl | exact absurd rfl hz) h.order nofun
    simp only [assemble, List.map_append, e]
  undo := rfl
  may h ho := by
    simp only [insElems, List.map_append, List.map_cons] at h ho ⊢
    exact ⟨fun _ => trivial, fun _ => (wf_insert (s := .element l) nofun rfl rfl rfl rfl).2 ⟨h, ho⟩⟩
  mayNot h := by
    simp only [insElems, List.map_append, List.map_cons] at h ⊢
    exact ⟨fun _ => trivial, fun _ => ((wf_insert (s := .element l) nofun rfl rfl rfl rfl).1 h).1⟩

theorem start_lone {a c : List Section} {x} (h : List.Sublist (nonCustom (a ++ .start x :: c)) sectionOrder) :
    startOf (a ++ .start x :: c) = some x := by
  unfold startOf
  exact And.left (lone_opt (s := .start x) (fun z hz => by cases z <;> first | rfl | exact absurd rfl hz) rfl h nofun)

theorem dataCount_lone {a c : List Section} {n} (h : List.Sublist (nonCustom (a ++ .dataCount n :: c)) sectionOrder) :
    dataCountOf (a ++ .dataCount n :: c) = some n ∧ dataCountOf (a ++ c) = none := by
  unfold dataCountOf
  exact lone_opt (s := .dataCount n) (fun z hz => by cases z <;> first | rfl | exact absurd rfl hz) rfl h nofun

theorem datas_none {a c : List Section} {l} (h : List.Sublist (nonCustom (a ++ .data l :: c)) sectionOrder) :
    datasOf (a ++ c) = [] := by
  unfold datasOf
  exact lone_list (s := .data l) (fun z hz => by cases z <;> first | rfl | exact absurd rfl hz) h nofun

theorem typeIdxs_none {a c : List Section} {l} (h : List.Sublist (nonCustom (a ++ .function l :: c)) sectionOrder) :
    typeIdxsOf (a ++ c) = [] := by
  unfold typeIdxsOf
  exact lone_list (s := .function l) (fun z hz => by cases z <;> first | rfl | exact absurd rfl hz) h nofun

theorem codes_none {a c : List Section} {l} (h : List.Sublist (nonCustom (a ++ .code l :: c)) sectionOrder) :
    codesOf (a ++ c) = [] := by
  unfold codesOf
  exact lone_list (s := .code l) (fun z hz => by cases z <;> first | rfl | exact absurd rfl hz) h nofun

theorem addable_start (x) : Addable (insStart x) where
  kind := nofun
  adds {a c z} _ h := by
    simp only [insStart, List.map_append, List.map_cons] at h
    simp only [assemble, insStart, record, List.map_append, List.map_cons, Module.mk.injEq]
    refine ⟨?_, recorded_kinds (s := .start x) nofun, recorded_headers (x := (z, .start x)), ?_, ?_, ?_, ?_, ?_, ?_, ?_, ?_, ?_, ?_, ?_, ?_, ?_⟩ <;>
      first
      | pasts
      | exact start_lone h.order
  gone {a c z} h := by
    simp only [insStart, List.map_append, List.map_cons] at h ⊢
    have e : startOf (a.map Prod.snd ++ c.map Prod.snd) = none := by
      unfold startOf
      exact And.right (lone_opt (s := .start x) (fun z hz => by cases z <;> first | rfl | exact absurd rfl hz) rfl h.order nofun)
    simp only [assemble, List.map_append, e]
  undo := rfl
  may h ho := by
    simp only [insStart, List.map_append, List.map_cons] at h ho ⊢
    exact ⟨fun _ => trivial, fun _ => (wf_insert (s := .start x) nofun rfl rfl rfl rfl).2 ⟨h, ho⟩⟩
  mayNot h := by
    simp only [insStart, List.map_append, List.map_cons] at h ⊢
    exact ⟨fun _ => trivial, fun _ => ((wf_insert (s := .start x) nofun rfl rfl rfl rfl).1 h).1⟩

theorem bodies_zip {as : List TypeIdx} {cs : List CodeEntry} (h : as.length = cs.length) :
    (∃ f ∈ List.zipWith mkFunc as cs, ∃ i ∈ f.body, UsesData i) ↔ ∃ c ∈ cs, ∃ i ∈ c.body, UsesData i := by
  have e := zip_codes h
  generalize List.zipWith mkFunc as cs = fs at e ⊢
  subst e
  simp only [List.mem_map]
  constructor
  · rintro ⟨f, hf, hi⟩; exact ⟨_, ⟨f, hf, rfl⟩, hi⟩
  · rintro ⟨_, ⟨f, hf, rfl⟩, hi⟩; exact ⟨f, hf, hi⟩

theorem addable_dataCount (n) : Addable (insDataCount n) where
  kind := nofun
  adds {a c z} _ h := by
    simp only [insDataCount, List.map_append, List.map_cons] at h
    simp only [assemble, insDataCount, record, List.map_append, List.map_cons, Module.mk.injEq]
    refine ⟨?_, recorded_kinds (s := .dataCount n) nofun, recorded_headers (x := (z, .dataCount n)), ?_, ?_, ?_, ?_, ?_, ?_, ?_, ?_, ?_, ?_, ?_, ?_, ?_⟩ <;>
      first
      | pasts
      | exact (dataCount_lone h.order).1
  gone {a c z} h := by
    simp only [insDataCount, List.map_append, List.map_cons] at h ⊢
    have e : dataCountOf (a.map Prod.snd ++ c.map Prod.snd) = none := by
      unfold dataCountOf
      exact And.right (lone_opt (s := .dataCount n) (fun z hz => by cases z <;> first | rfl | exact absurd rfl hz) rfl h.order nofun)
    simp only [assemble, List.map_append, e]
  undo := rfl
  may {a c z} h ho := by
    simp only [insDataCount, List.map_append, List.map_cons, assemble] at h ho ⊢
    generalize a.map Prod.snd = a at h ho ⊢
    generalize c.map Prod.snd = c at h ho ⊢
    have ho' : List.Sublist (nonCustom (a ++ .dataCount n :: c)) sectionOrder := by rw [kinds_insert (s := .dataCount n) nofun]; exact ho
    have e : dataCountOf (a ++ .dataCount n :: c) = some n :=
      (dataCount_lone ho').1
    have e1 : typeIdxsOf (a ++ .dataCount n :: c) = typeIdxsOf (a ++ c) := past rfl
    have e2 : codesOf (a ++ .dataCount n :: c) = codesOf (a ++ c) := past rfl
    have e3 : datasOf (a ++ .dataCount n :: c) = datasOf (a ++ c) := past rfl
    constructor
    · intro h; rw [← e3]; exact h.dataCount n e
    · intro hl
      refine ⟨ho', by rw [e1, e2]; exact h.funcs, fun k hk => ?_, fun _ => by rw [e]; nofun⟩
      rw [e] at hk; cases hk; rw [e3]; exact hl
  mayNot {a c z} h := by
    simp only [insDataCount, List.map_append, List.map_cons, assemble] at h ⊢
    generalize a.map Prod.snd = a at h ⊢
    generalize c.map Prod.snd = c at h ⊢
    have e : dataCountOf (a ++ c) = none :=
      (dataCount_lone h.order).2
    have e1 : typeIdxsOf (a ++ .dataCount n :: c) = typeIdxsOf (a ++ c) := past rfl
    have e2 : codesOf (a ++ .dataCount n :: c) = codesOf (a ++ c) := past rfl
    have hfun := h.funcs
    have ho := h.order
    rw [kinds_insert (s := .dataCount n) nofun] at ho
    rw [bodies_zip hfun]
    rw [e1, e2] at hfun
    rw [e2]
    constructor
    · intro hw hu; exact hw.dataIdx hu e
    · intro hu
      refine ⟨by rw [kinds_append]; exact order_remove ho, hfun, fun k hk => ?_, fun hx => absurd hx hu⟩
      rw [e] at hk; cases hk

theorem addable_datas (l) : Addable (insDatas l) where
  kind := nofun
  adds {a c z} _ h := by
    simp only [insDatas, List.map_append, List.map_cons] at h
    simp only [assemble, insDatas, record, List.map_append, List.map_cons, Module.mk.injEq]
    refine ⟨?_, recorded_kinds (s := .data l) nofun, recorded_headers (x := (z, .data l)), ?_, ?_, ?_, ?_, ?_, ?_, ?_, ?_, ?_, ?_, ?_, ?_, ?_⟩ <;>
      first | pasts | exact datas_lone h.order
  gone {a c z} h := by
    simp only [insDatas, List.map_append, List.map_cons] at h ⊢
    have e : datasOf (a.map Prod.snd ++ c.map Prod.snd) = [] := by
      unfold datasOf
      exact lone_list (s := .data l) (fun z hz => by cases z <;> first | rfl | exact absurd rfl hz) h.order nofun
    simp only [assemble, List.map_append, e]
  undo := rfl
  may {a c z} h ho := by
    simp only [insDatas, List.map_append, List.map_cons, assemble] at h ho ⊢
    generalize a.map Prod.snd = a at h ho ⊢
    generalize c.map Prod.snd = c at h ho ⊢
    have ho' : List.Sublist (nonCustom (a ++ .data l :: c)) sectionOrder := by rw [kinds_insert (s := .data l) nofun]; exact ho
    have e : datasOf (a ++ .data l :: c) = l := datas_lone ho'
    have e1 : typeIdxsOf (a ++ .data l :: c) = typeIdxsOf (a ++ c) := past rfl
    have e2 : codesOf (a ++ .data l :: c) = codesOf (a ++ c) := past rfl
    have e3 : dataCountOf (a ++ .data l :: c) = dataCountOf (a ++ c) := congrArg List.head? (pastOpt rfl)
    constructor
    · intro h k hk; rw [← e3] at hk; have := h.dataCount k hk; rwa [e] at this
    · intro hl
      exact ⟨ho', by rw [e1, e2]; exact h.funcs, by rw [e3, e]; exact hl, by rw [e2, e3]; exact h.dataIdx⟩
  mayNot {a c z} h := by
    simp only [insDatas, List.map_append, List.map_cons, assemble] at h ⊢
    generalize a.map Prod.snd = a at h ⊢
    generalize c.map Prod.snd = c at h ⊢
    have e : datasOf (a ++ c) = [] :=
      datas_none h.order
    have e0 : datasOf (a ++ .data l :: c) = l := datas_lone h.order
    have e1 : typeIdxsOf (a ++ .data l :: c) = typeIdxsOf (a ++ c) := past rfl
    have e2 : codesOf (a ++ .data l :: c) = codesOf (a ++ c) := past rfl
    have e3 : dataCountOf (a ++ .data l :: c) = dataCountOf (a ++ c) := congrArg List.head? (pastOpt rfl)
    have ho := h.order
    rw [kinds_insert (s := .data l) nofun] at ho
    have hd := h.dataCount
    have hf := h.funcs
    have hi := h.dataIdx
    rw [e3] at hd hi ⊢
    rw [e0] at hd
    rw [e2] at hf hi
    rw [e1] at hf
    constructor
    · intro hw hn
      generalize hk : dataCountOf (a ++ c) = o at hn
      cases o with
      | none => exact absurd rfl hn
      | some k =>
        have h1 := hw.dataCount k hk
        have h2 := hd k hk
        rw [e] at h1
        rw [← h1] at h2
        exact List.length_eq_zero_iff.1 h2
    · intro hl
      refine ⟨by rw [kinds_append]; exact order_remove ho, hf, fun k hk => ?_, hi⟩
      have h2 := hd k hk
      rw [hl (by rw [hk]; nofun)] at h2
      rw [e]; exact h2

theorem addable_typeIdxs (l) : Addable (insFuncTypes l) where
  kind := nofun
  adds {a c z} hb h := by
    simp only [insFuncTypes, List.map_append, List.map_cons] at hb h
    have hz : List.zipWith mkFunc (typeIdxsOf (a.map Prod.snd ++ .function l :: c.map Prod.snd)) (codesOf (a.map Prod.snd ++ .function l :: c.map Prod.snd)) =
        List.zipWith mkFunc (typeIdxsOf (a.map Prod.snd ++ c.map Prod.snd)) (codesOf (a.map Prod.snd ++ c.map Prod.snd)) := by
      have h1 := hb.funcs
      rw [typeIdxs_none h.order] at h1 ⊢
      rw [List.zipWith_nil_left, List.zipWith_eq_nil_iff]
      right
      rw [show codesOf (a.map Prod.snd ++ .function l :: c.map Prod.snd) = codesOf (a.map Prod.snd ++ c.map Prod.snd) from past rfl]
      exact List.length_eq_zero_iff.1 h1.symm
    simp only [assemble, insFuncTypes, record, List.map_append, List.map_cons, Module.mk.injEq]
    refine ⟨?_, recorded_kinds (s := .function l) nofun, recorded_headers (x := (z, .function l)), ?_, ?_, ?_, ?_, ?_, ?_, ?_, ?_, ?_, ?_, ?_, ?_, ?_⟩ <;>
      first | exact hz | pasts
  gone _ := rfl
  undo := rfl
  may {a c z} h ho := by
    simp only [insFuncTypes, List.map_append, List.map_cons, assemble] at h ho ⊢
    generalize a.map Prod.snd = a at h ho ⊢
    generalize c.map Prod.snd = c at h ho ⊢
    have ho' : List.Sublist (nonCustom (a ++ .function l :: c)) sectionOrder := by rw [kinds_insert (s := .function l) nofun]; exact ho
    have e : typeIdxsOf (a ++ c) = [] := typeIdxs_none ho'
    have e0 : typeIdxsOf (a ++ .function l :: c) = l := typeIdxs_lone ho'
    have e1 : codesOf (a ++ .function l :: c) = codesOf (a ++ c) := past rfl
    have e2 : datasOf (a ++ .function l :: c) = datasOf (a ++ c) := past rfl
    have e3 : dataCountOf (a ++ .function l :: c) = dataCountOf (a ++ c) := congrArg List.head? (pastOpt rfl)
    have hf := h.funcs
    have hi := h.dataIdx
    rw [e] at hf
    constructor
    · intro hw
      have := hw.funcs
      rw [e0, e1] at this
      exact List.length_eq_zero_iff.1 (by rw [List.length_nil] at hf; omega)
    · rintro rfl
      exact ⟨ho', by rw [e0, e1]; exact hf, by rw [e2, e3]; exact h.dataCount, by rw [e1, e3]; exact hi⟩
  mayNot {a c z} h := by
    simp only [insFuncTypes, List.map_append, List.map_cons, assemble] at h ⊢
    generalize a.map Prod.snd = a at h ⊢
    generalize c.map Prod.snd = c at h ⊢
    have ho := h.order
    have e : typeIdxsOf (a ++ c) = [] := typeIdxs_none ho
    have e0 : typeIdxsOf (a ++ .function l :: c) = l := typeIdxs_lone ho
    have e1 : codesOf (a ++ .function l :: c) = codesOf (a ++ c) := past rfl
    have e2 : datasOf (a ++ .function l :: c) = datasOf (a ++ c) := past rfl
    have e3 : dataCountOf (a ++ .function l :: c) = dataCountOf (a ++ c) := congrArg List.head? (pastOpt rfl)
    have hf := h.funcs
    rw [e0, e1] at hf
    rw [kinds_insert (s := .function l) nofun] at ho
    constructor
    · intro hw
      have := hw.funcs
      rw [e, List.length_nil] at this
      exact List.length_eq_zero_iff.1 (by omega)
    · rintro rfl
      exact ⟨by rw [kinds_append]; exact order_remove ho, by rw [e]; exact hf, by rw [← e2, ← e3]; exact h.dataCount, by rw [← e1, ← e3]; exact h.dataIdx⟩

theorem addable_codes (l) : Addable (insCodes l) where
  kind := nofun
  adds {a c z} hb h := by
    simp only [insCodes, List.map_append, List.map_cons] at hb h
    have hz : List.zipWith mkFunc (typeIdxsOf (a.map Prod.snd ++ .code l :: c.map Prod.snd)) (codesOf (a.map Prod.snd ++ .code l :: c.map Prod.snd)) =
        List.zipWith mkFunc (typeIdxsOf (a.map Prod.snd ++ c.map Prod.snd)) (codesOf (a.map Prod.snd ++ c.map Prod.snd)) := by
      have h1 := hb.funcs
      rw [codes_none h.order] at h1 ⊢
      rw [List.zipWith_nil_right, List.zipWith_eq_nil_iff]
      left
      rw [show typeIdxsOf (a.map Prod.snd ++ .code l :: c.map Prod.snd) = typeIdxsOf (a.map Prod.snd ++ c.map Prod.snd) from past rfl]
      exact List.length_eq_zero_iff.1 h1
    simp only [assemble, insCodes, record, List.map_append, List.map_cons, Module.mk.injEq]
    refine ⟨?_, recorded_kinds (s := .code l) nofun, recorded_headers (x := (z, .code l)), ?_, ?_, ?_, ?_, ?_, ?_, ?_, ?_, ?_, ?_, ?_, ?_, ?_⟩ <;>
      first | exact hz | pasts
  gone _ := rfl
  undo := rfl
  may {a c z} h ho := by
    simp only [insCodes, List.map_append, List.map_cons, assemble] at h ho ⊢
    generalize a.map Prod.snd = a at h ho ⊢
    generalize c.map Prod.snd = c at h ho ⊢
    have ho' : List.Sublist (nonCustom (a ++ .code l :: c)) sectionOrder := by rw [kinds_insert (s := .code l) nofun]; exact ho
    have e : codesOf (a ++ c) = [] := codes_none ho'
    have e0 : codesOf (a ++ .code l :: c) = l := codes_lone ho'
    have e1 : typeIdxsOf (a ++ .code l :: c) = typeIdxsOf (a ++ c) := past rfl
    have e2 : datasOf (a ++ .code l :: c) = datasOf (a ++ c) := past rfl
    have e3 : dataCountOf (a ++ .code l :: c) = dataCountOf (a ++ c) := congrArg List.head? (pastOpt rfl)
    have hf := h.funcs
    have hi := h.dataIdx
    rw [e] at hf
    constructor
    · intro hw
      have := hw.funcs
      rw [e0, e1] at this
      exact List.length_eq_zero_iff.1 (by rw [List.length_nil] at hf; omega)
    · rintro rfl
      exact ⟨ho', by rw [e0, e1]; exact hf, by rw [e2, e3]; exact h.dataCount, by rw [e0, e3]; rintro ⟨_, hc, _⟩; cases hc⟩
  mayNot {a c z} h := by
    simp only [insCodes, List.map_append, List.map_cons, assemble] at h ⊢
    generalize a.map Prod.snd = a at h ⊢
    generalize c.map Prod.snd = c at h ⊢
    have ho := h.order
    have e : codesOf (a ++ c) = [] := codes_none ho
    have e0 : codesOf (a ++ .code l :: c) = l := codes_lone ho
    have e1 : typeIdxsOf (a ++ .code l :: c) = typeIdxsOf (a ++ c) := past rfl
    have e2 : datasOf (a ++ .code l :: c) = datasOf (a ++ c) := past rfl
    have e3 : dataCountOf (a ++ .code l :: c) = dataCountOf (a ++ c) := congrArg List.head? (pastOpt rfl)
    have hf := h.funcs
    rw [e0, e1] at hf
    rw [kinds_insert (s := .code l) nofun] at ho
    constructor
    · intro hw
      have := hw.funcs
      rw [e, List.length_nil] at this
      exact List.length_eq_zero_iff.1 (by omega)
    · rintro rfl
      exact ⟨by rw [kinds_append]; exact order_remove ho, by rw [e]; exact hf, by rw [← e2, ← e3]; exact h.dataCount, by rw [e]; rintro ⟨_, hc, _⟩; cases hc⟩

/-- A function section and a code section together. -/
theorem wf_pair {a c d : List Section} {xs : List TypeIdx} {cs : List CodeEntry} :
    WellFormed (a ++ .function xs :: (c ++ .code cs :: d)) ↔
      WellFormed (a ++ (c ++ d)) ∧ List.Sublist (nonCustom a ++ .Function :: (nonCustom c ++ .Code :: nonCustom d)) sectionOrder ∧
      xs.length = cs.length ∧ ((∃ x ∈ cs, ∃ i ∈ x.body, UsesData i) → dataCountOf (a ++ (c ++ d)) ≠ none) := by
  have hk : nonCustom (a ++ .function xs :: (c ++ .code cs :: d)) = nonCustom a ++ .Function :: (nonCustom c ++ .Code :: nonCustom d) := by
    rw [kinds_insert (s := .function xs) nofun, kinds_insert (s := .code cs) nofun]; rfl
  have regroup : ∀ s : Section, a ++ (c ++ s :: d) = (a ++ c) ++ s :: d := fun s => by rw [List.append_assoc]
  have facts : List.Sublist (nonCustom (a ++ .function xs :: (c ++ .code cs :: d))) sectionOrder →
      typeIdxsOf (a ++ .function xs :: (c ++ .code cs :: d)) = xs ∧ codesOf (a ++ .function xs :: (c ++ .code cs :: d)) = cs ∧
      typeIdxsOf (a ++ (c ++ d)) = [] ∧ codesOf (a ++ (c ++ d)) = [] := by
    intro ho
    have ho2 : List.Sublist (nonCustom ((a ++ c) ++ .code cs :: d)) sectionOrder := by
      rw [← regroup, kinds_append]
      refine order_remove (k := .Function) ?_
      rwa [kinds_insert (s := .function xs) nofun] at ho
    refine ⟨typeIdxs_lone ho, ?_, ?_, ?_⟩
    · rw [show codesOf (a ++ .function xs :: (c ++ .code cs :: d)) = codesOf (a ++ (c ++ .code cs :: d)) from past rfl, regroup]
      exact codes_lone ho2
    · rw [← typeIdxs_none ho, regroup, ← List.append_assoc]
      exact (past rfl).symm
    · rw [← List.append_assoc]; exact codes_none ho2
  have e3 : datasOf (a ++ .function xs :: (c ++ .code cs :: d)) = datasOf (a ++ (c ++ d)) := by
    rw [show datasOf (a ++ .function xs :: (c ++ .code cs :: d)) = datasOf (a ++ (c ++ .code cs :: d)) from past rfl, regroup,
      ← List.append_assoc]
    exact past rfl
  have e4 : dataCountOf (a ++ .function xs :: (c ++ .code cs :: d)) = dataCountOf (a ++ (c ++ d)) := by
    rw [show dataCountOf (a ++ .function xs :: (c ++ .code cs :: d)) = dataCountOf (a ++ (c ++ .code cs :: d)) from
      congrArg List.head? (pastOpt rfl), regroup, ← List.append_assoc]
    exact congrArg List.head? (pastOpt rfl)
  constructor
  · intro h
    obtain ⟨f1, f2, f3, f4⟩ := facts h.order
    have ho := h.order
    have hf := h.funcs
    have hd := h.dataCount
    have hi := h.dataIdx
    rw [hk] at ho
    rw [f1, f2] at hf
    rw [e3, e4] at hd
    rw [f2, e4] at hi
    refine ⟨⟨?_, by rw [f3, f4]; rfl, hd, by rw [f4]; rintro ⟨_, hx, _⟩; cases hx⟩, ho, hf, hi⟩
    rw [kinds_append, kinds_append, ← List.append_assoc]
    have := order_remove ho
    rw [← List.append_assoc] at this
    exact order_remove this
  · rintro ⟨h, ho, hf, hi⟩
    rw [← hk] at ho
    obtain ⟨f1, f2, f3, f4⟩ := facts ho
    exact ⟨ho, by rw [f1, f2]; exact hf, by rw [e3, e4]; exact h.dataCount, by rw [f2, e4]; exact hi⟩

theorem assemble_pair {a c d : List (UInt32 × Section)} {xs : List TypeIdx} {cs : List CodeEntry} {z1 z2 : UInt32}
    (h : WellFormed ((a ++ (z1, .function xs) :: (c ++ (z2, .code cs) :: d)).map Prod.snd)) :
    assemble (a ++ (z1, .function xs) :: (c ++ (z2, .code cs) :: d)) =
      record a .Function z1 (record (a ++ c) .Code z2 { assemble (a ++ (c ++ d)) with funcs := List.zipWith mkFunc xs cs }) ∧
    (assemble (a ++ (c ++ d))).funcs = [] := by
  simp only [List.map_append, List.map_cons] at h
  have ho := h.order
  have hb := (wf_pair.1 h).1
  have f1 := typeIdxs_lone ho
  have ho2 : List.Sublist (nonCustom ((a.map Prod.snd ++ c.map Prod.snd) ++ .code cs :: d.map Prod.snd)) sectionOrder := by
    rw [List.append_assoc, kinds_append]
    refine order_remove (k := .Function) ?_
    rwa [kinds_insert (s := .function xs) nofun] at ho
  have f2 : codesOf (a.map Prod.snd ++ .function xs :: (c.map Prod.snd ++ .code cs :: d.map Prod.snd)) = cs := by
    rw [show codesOf (a.map Prod.snd ++ .function xs :: (c.map Prod.snd ++ .code cs :: d.map Prod.snd)) =
      codesOf (a.map Prod.snd ++ (c.map Prod.snd ++ .code cs :: d.map Prod.snd)) from past rfl, ← List.append_assoc]
    exact codes_lone ho2
  have f4 : codesOf (a.map Prod.snd ++ (c.map Prod.snd ++ d.map Prod.snd)) = [] := by
    rw [← List.append_assoc]; exact codes_none ho2
  refine ⟨?_, by simp only [assemble, List.map_append, f4, List.zipWith_nil_right]⟩
  have both : ∀ {α : Type} {g : Section → List α}, g (.function xs) = [] → g (.code cs) = [] →
      (a.map Prod.snd ++ .function xs :: (c.map Prod.snd ++ .code cs :: d.map Prod.snd)).flatMap g =
        (a.map Prod.snd ++ (c.map Prod.snd ++ d.map Prod.snd)).flatMap g := by
    intro α g h1 h2; simp [h1, h2]
  have bothOpt : ∀ {α : Type} {g : Section → Option α}, g (.function xs) = none → g (.code cs) = none →
      (a.map Prod.snd ++ .function xs :: (c.map Prod.snd ++ .code cs :: d.map Prod.snd)).filterMap g =
        (a.map Prod.snd ++ (c.map Prod.snd ++ d.map Prod.snd)).filterMap g := by
    intro α g h1 h2; simp [List.filterMap_cons, h1, h2]
  simp only [assemble, record, List.map_append, List.map_cons, Module.mk.injEq, f1, f2]
  refine ⟨?_, ?_, ?_, ?_, ?_, ?_, ?_, ?_, ?_, ?_, ?_, ?_, ?_, ?_, ?_, ?_⟩ <;>
    first
    | exact both rfl rfl
    | exact bothOpt rfl rfl
    | exact congrArg List.head? (bothOpt rfl rfl)
    | rfl
    | exact trivial
    | skip
  · simp only [kinds_insert (s := .function xs) nofun, kinds_insert (s := .code cs) nofun, kinds_append]
    rw [← List.append_assoc, insert_behind (a := nonCustom (a.map Prod.snd) ++ nonCustom (c.map Prod.snd)) rfl, List.append_assoc,
      insert_behind rfl]
    rfl
  · rw [← List.append_assoc (List.map _ a), insert_behind (a := List.map _ a ++ List.map _ c) (by simp), List.append_assoc,
      insert_behind (by simp)]
    rfl

end Wadec
