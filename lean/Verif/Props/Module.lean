import Verif.Props.Unambiguous
import Verif.Proof.ModuleErr

/-! C17–C24, C27, C28, C39, C40: modules. -/

namespace Wadec

open LawfulRead Spec

section
variable {R : Type} [LawfulRead R]

/-! ### Conformance -/

/-- C17: whatever is accepted is a well-formed binary module, and denotes the result. -/
theorem c17_sound {r r' : R} {m : Module} (h : decodeModule r = (.ok m, r')) : BModule (avail r) m :=
  (module_sound h).1

/-- C18: every well-formed binary module is accepted, with the module it denotes. -/
theorem c18_complete {r : R} {m : Module} (h : BModule (avail r) m) (hf : fin r = .eof) :
    ∃ r', decodeModule r = (.ok m, r') :=
  module_complete h (by rw [hf]; rfl)

/-- C17, C18 together for a byte string. -/
theorem c18_bytes (bs : Bytes) (m : Module) :
    (∃ r', decodeModule (Src.ofBytes bs) = (.ok m, r')) ↔ BModule bs m := by
  constructor
  · rintro ⟨r', h⟩
    have := c17_sound h
    rwa [avail_ofBytes] at this
  · intro h
    exact c18_complete (by rwa [avail_ofBytes]) (fin_ofBytes _)

/-! ### Order -/

theorem mayFollow_iff {ss : List Section} {s : Section} :
    MayFollow ss s.kind ↔ Sorted (nonCustom (ss ++ [s])) := by
  rw [sorted_iff, nonCustom_append]
  rfl

theorem before_iff {a b : SectionKind} (ha : a ≠ .Custom) (hb : b ≠ .Custom) :
    Before a b ↔ a.rank < b.rank := by
  constructor
  · intro h
    have := List.Pairwise.sublist h sectionOrder_sorted
    simpa using this
  · intro h
    refine sublist_of_sorted SectionKind.rank _ _ sectionOrder_sorted (by simpa using h) ?_
    intro x hx
    simp only [List.mem_cons, List.not_mem_nil, or_false] at hx
    rcases hx with rfl | rfl
    · exact mem_sectionOrder ha
    · exact mem_sectionOrder hb

theorem last_ne_custom {ss : List Section} {p : SectionKind}
    (h : (nonCustom ss).getLast? = some p) : p ≠ .Custom := by
  have := List.mem_of_getLast? h
  simp only [nonCustom, List.mem_filter, decide_eq_true_eq] at this
  exact this.2

theorem before_irrefl {k : SectionKind} : ¬ Before k k := by
  intro h
  have := List.Pairwise.sublist h sectionOrder_sorted
  simp at this

/-- C19: the non-custom sections of an accepted module are in the prescribed order, each at most
once, and the recorded kinds are exactly those of the recorded headers. -/
theorem c19_order {r r' : R} {m : Module} (h : decodeModule r = (.ok m, r')) :
    List.Sublist m.parsed_section_kinds sectionOrder ∧ m.parsed_section_kinds.Nodup ∧
    m.parsed_section_kinds = (m.section_headers.map SectionHeader.kind).filter (· ≠ .Custom) := by
  have := c17_sound h
  generalize avail r = bs at this
  cases this with
  | @mk bs secs hb hw =>
    refine ⟨hw.order, ?_, ?_⟩
    · refine List.Pairwise.imp ?_ (sorted_iff.2 hw.order)
      intro a b hab hne
      rw [hne] at hab
      omega
    · simp [assemble, nonCustom, Function.comp_def]

theorem at_section {r : R} {secs : List Section} {k : SectionKind} {size : UInt32} {rest : Bytes}
    (h : AtSection (avail r) secs k size rest) :
    ∃ secs' r1, secs = secs'.map Prod.snd ∧ Acceptable (secs'.map Prod.snd) ∧ avail r1 = rest ∧
      fin r1 = fin r ∧
      (∀ e r', decodeSection ⟨k, size⟩ (stateOf secs') r1 = (.err e, r') →
        decodeModule r = (.err e, r')) := by
  generalize ha : avail r = inp at h
  cases h with
  | mk hb hacc h1 =>
    obtain ⟨r1, a, av, he⟩ := module_at_section hb hacc h1 ha
    exact ⟨_, r1, rfl, hacc, av, adv_fin a, he⟩

theorem order_fails {pre : List (UInt32 × Section)} {k p : SectionKind} {size : UInt32}
    (hacc : Acceptable (pre.map Prod.snd)) (hp : (nonCustom (pre.map Prod.snd)).getLast? = some p)
    (hk : k ≠ .Custom) (hr : k.rank ≤ p.rank) (r : R) :
    decodeSection ⟨k, size⟩ (stateOf pre) r =
      (.err (if k = p then .DuplicateSection k else .SectionOutOfOrder k p), r) := by
  rcases validate_kind (R := R) k (sorted_iff.2 hacc.order) with ⟨ho, _⟩ | ⟨_, p', hp', _, _, hv⟩
  · obtain ⟨s, rfl⟩ := exists_kind k
    have := Sorted.before (ho s rfl) hk
    have hm := List.mem_of_getLast? hp
    simp only [nonCustom, List.mem_filter, List.mem_map] at hm
    obtain ⟨⟨s', hs', rfl⟩, _⟩ := hm
    have := this s' (List.mem_map.2 hs')
    omega
  · rw [hp] at hp'
    cases hp'
    simp only [decodeSection, hv]
    rfl

/-- C19: an input is rejected with `DuplicateSection(k)` exactly when, after sections that may open
a module, the last non-custom of which has kind `k`, another section of kind `k` begins. -/
theorem c19_duplicate {r : R} {k : SectionKind} :
    (∃ r', decodeModule r = (.err (.DuplicateSection k), r')) ↔
    ∃ secs size rest, AtSection (avail r) secs k size rest ∧ (nonCustom secs).getLast? = some k := by
  constructor
  · rintro ⟨r', h⟩
    cases module_err h with
    | @sect _ secs bs k' size b1 r1 hb hacc h1 a he =>
      generalize hx : DecodeModuleError.DuplicateSection k = e at he
      cases he with
      | duplicate hl =>
        cases hx
        refine ⟨secs.map Prod.snd, size, avail r1, ?_, hl⟩
        have := AtSection.mk (rest := avail r1) (k := k') hb hacc h1
        rw [adv_avail a]
        simpa using this
      | body ht _ hd =>
        subst hx
        have := body_err hd
        generalize hx : DecodeModuleError.DuplicateSection k = e at this
        cases this with
        | inner hi => subst hx; simp [DecodeModuleError.inner] at hi
        | code => cases hx
        | data => cases hx
      | order => cases hx
      | size => cases hx
      | customSize => cases hx
    | final _ _ _ _ he => cases he
  · rintro ⟨secs, size, rest, h, hl⟩
    obtain ⟨secs', r1, rfl, hacc, _, _, he⟩ := at_section h
    have := order_fails (size := size) hacc hl (last_ne_custom hl) (Nat.le_refl _) r1
    rw [if_pos rfl] at this
    exact ⟨_, he _ _ this⟩

/-- C19: an input is rejected with `SectionOutOfOrder { current: k, previous: p }` exactly when,
after sections that may open a module, the last non-custom of which has kind `p`, a section of a
kind `k` that precedes `p` begins. -/
theorem c19_outOfOrder {r : R} {k p : SectionKind} :
    (∃ r', decodeModule r = (.err (.SectionOutOfOrder k p), r')) ↔
    ∃ secs size rest, AtSection (avail r) secs k size rest ∧ (nonCustom secs).getLast? = some p ∧
      Before k p := by
  constructor
  · rintro ⟨r', h⟩
    cases module_err h with
    | @sect _ secs bs k' size b1 r1 hb hacc h1 a he =>
      generalize hx : DecodeModuleError.SectionOutOfOrder k p = e at he
      cases he with
      | order hl hk hr =>
        cases hx
        refine ⟨secs.map Prod.snd, size, avail r1, ?_, hl, (before_iff hk (last_ne_custom hl)).2 hr⟩
        have := AtSection.mk (rest := avail r1) (k := k') hb hacc h1
        rw [adv_avail a]
        simpa using this
      | body ht _ hd =>
        subst hx
        have := body_err hd
        generalize hx : DecodeModuleError.SectionOutOfOrder k p = e at this
        cases this with
        | inner hi => subst hx; simp [DecodeModuleError.inner] at hi
        | code => cases hx
        | data => cases hx
      | duplicate => cases hx
      | size => cases hx
      | customSize => cases hx
    | final _ _ _ _ he => cases he
  · rintro ⟨secs, size, rest, h, hl, hb⟩
    obtain ⟨secs', r1, rfl, hacc, _, _, he⟩ := at_section h
    have hk : k ≠ .Custom := by
      rintro rfl
      have := hb.subset (a := .Custom) (by simp)
      simp [sectionOrder] at this
    have hr := (before_iff hk (last_ne_custom hl)).1 hb
    have := order_fails (size := size) hacc hl hk (Nat.le_of_lt hr) r1
    rw [if_neg (by rintro rfl; omega)] at this
    exact ⟨_, he _ _ this⟩

/-! ### Accounting for all bytes -/

theorem parts_of {bs : Bytes} {secs : List (UInt32 × Section)} (h : BSeq BSection bs secs) :
    ∃ parts : List Part, (∀ p ∈ parts, p.Ok) ∧ bs = parts.flatMap Part.bytes ∧
      parts.map Part.header = secs.map (fun s => ⟨s.2.kind, s.1⟩) ∧
      Each (fun p s => BContents p.contents s) parts (secs.map Prod.snd) := by
  induction h with
  | nil => exact ⟨[], by simp, rfl, rfl, .nil⟩
  | @cons b bs x xs hx _ ih =>
    obtain ⟨parts, h1, h2, h3, h4⟩ := ih
    cases hx with
    | @mk b1 b2 size s hs hl hc =>
      refine ⟨⟨⟨s.kind, size⟩, b1, b2⟩ :: parts, ?_, ?_, ?_, .cons hc h4⟩
      · intro p hp
        rcases List.mem_cons.1 hp with rfl | hp
        · exact ⟨hs, hl⟩
        · exact h1 p hp
      · simp [Part.bytes, h2]
      · simp [h3]

/-- C20: an accepted input is the preamble followed by one part per recorded header, in order:
an id byte, a size field that encodes the recorded size, and that many content bytes. -/
theorem c20_parts {r r' : R} {m : Module} (h : decodeModule r = (.ok m, r')) :
    ∃ parts : List Part, (∀ p ∈ parts, p.Ok) ∧ parts.map Part.header = m.section_headers ∧
      avail r = preamble ++ parts.flatMap Part.bytes := by
  have := c17_sound h
  generalize avail r = bs at this
  cases this with
  | mk hb hw =>
    obtain ⟨parts, h1, h2, h3, _⟩ := parts_of hb
    exact ⟨parts, h1, h3, by rw [h2]⟩

/-- C20: the length of an accepted input in terms of the recorded headers. -/
theorem c20_length {r r' : R} {m : Module} (h : decodeModule r = (.ok m, r')) :
    ∃ fields : List Bytes, Each (fun f hd => BU32 f hd.size) fields m.section_headers ∧
      (avail r).length = 8 + (List.zipWith (fun f hd => 1 + f.length + hd.size.toNat) fields
        m.section_headers).sum := by
  obtain ⟨parts, h1, h2, h3⟩ := c20_parts h
  refine ⟨parts.map Part.sizeField, ?_, ?_⟩
  · rw [← h2]
    clear h2 h3
    induction parts with
    | nil => exact .nil
    | cons p ps ih =>
      exact .cons (h1 p (by simp)).1 (ih fun q hq => h1 q (by simp [hq]))
  · rw [← h2, h3, List.length_append]
    have : preamble.length = 8 := rfl
    rw [this]
    congr 1
    clear h2 h3
    induction parts with
    | nil => rfl
    | cons p ps ih =>
      have := (h1 p (by simp)).2
      simp only [List.flatMap_cons, List.length_append, List.map_cons, List.zipWith_cons_cons,
        List.sum_cons, ih fun q hq => h1 q (by simp [hq])]
      simp only [Part.bytes, List.length_cons, List.length_append]
      omega

/-- C21: if an accepted input and an extension of it are both accepted, the extension consists of
complete well-formed sections that may follow, and the larger module is what the sections of both
denote. -/
theorem c21_trailing {S : Type} [LawfulRead S] {r r' : R} {s s' : S} {m m' : Module} {t : Bytes}
    (h : decodeModule r = (.ok m, r')) (h' : decodeModule s = (.ok m', s'))
    (ht : avail s = avail r ++ t) :
    ∃ secs more, BSeq BSection t more ∧ m = assemble secs ∧ m' = assemble (secs ++ more) ∧
      WellFormed ((secs ++ more).map Prod.snd) ∧ avail r = preamble ++ (avail r).drop 8 ∧
      BSeq BSection ((avail r).drop 8) secs := by
  have h1 := c17_sound h
  have h2 := c17_sound h'
  rw [ht] at h2
  generalize avail r = bs at h1 h2 ⊢
  cases h1 with
  | @mk b secs hb hw =>
    rw [List.append_assoc] at h2
    generalize hbb : preamble ++ (b ++ t) = bs' at h2
    cases h2 with
    | @mk b' secs' hb' hw' =>
      have := List.append_cancel_left hbb
      subst this
      obtain ⟨more, rfl, hm⟩ := sections_prefix hb hb'
      exact ⟨secs, more, hm, rfl, rfl, hw', by simp [preamble], by simpa [preamble] using hb⟩

/-- C21: bytes behind an accepted module that are no sequence of complete sections are rejected. -/
theorem c21_garbage {S : Type} [LawfulRead S] {r r' : R} {s : S} {m : Module} {t : Bytes}
    (h : decodeModule r = (.ok m, r')) (ht : avail s = avail r ++ t)
    (hg : ¬ ∃ secs, BSeq BSection t secs) : ∀ m' s', decodeModule s ≠ (.ok m', s') := by
  intro m' s' h'
  obtain ⟨_, more, hm, _⟩ := c21_trailing h h' ht
  exact hg ⟨more, hm⟩

/-! ### Custom sections -/

/-- C23: the custom sections are reported in input order, each with exactly its name and exactly
the remaining bytes of its section. -/
theorem c23_custom {r r' : R} {m : Module} (h : decodeModule r = (.ok m, r')) :
    ∃ parts : List Part, (∀ p ∈ parts, p.Ok) ∧ parts.map Part.header = m.section_headers ∧
      avail r = preamble ++ parts.flatMap Part.bytes ∧
      Each (fun p c => ∃ b, BName b c.name ∧ p.contents = b ++ c.contents)
        (parts.filter (fun p => p.header.kind = .Custom)) m.custom_sections := by
  have := c17_sound h
  generalize avail r = bs at this
  cases this with
  | @mk bs secs hb hw =>
    obtain ⟨parts, h1, h2, h3, h4⟩ := parts_of hb
    refine ⟨parts, h1, h3, by rw [h2], ?_⟩
    show Each _ _ (customsOf (secs.map Prod.snd))
    clear hw h2 hb h1 h
    induction secs generalizing parts with
    | nil =>
      cases parts with
      | nil => exact .nil
      | cons p ps => simp at h3
    | cons s secs ih =>
      cases parts with
      | nil => simp at h3
      | cons p ps =>
        simp only [List.map_cons, List.cons.injEq] at h3
        cases h4 with
        | cons hp h4 =>
          have := ih ps h3.2 h4
          obtain ⟨size, s⟩ := s
          simp only at h3 hp
          cases s with
          | custom c =>
            have hk : p.header.kind = .Custom := by rw [h3.1]; rfl
            simp only [List.map_cons, customsOf, hk, decide_true,
              List.filter_cons_of_pos]
            refine .cons ?_ this
            cases hp with
            | custom hc =>
              generalize hb : p.contents = b at hc
              cases hc with
              | mk hn => exact ⟨_, hn, rfl⟩
          | _ =>
            have hk : p.header.kind ≠ .Custom := by rw [h3.1]; simp [Section.kind]
            simp only [List.map_cons, customsOf, List.filterMap_cons_none]
            rw [List.filter_cons_of_neg (by simpa using hk)]
            exact this

theorem flatMap_filter {α β : Type} {f : α → List β} {p : α → Bool} (l : List α)
    (h : ∀ a, p a = false → f a = []) : (l.filter p).flatMap f = l.flatMap f := by
  induction l with
  | nil => rfl
  | cons a l ih =>
    cases hp : p a with
    | true => rw [List.filter_cons_of_pos hp]; simp [ih]
    | false => rw [List.filter_cons_of_neg (by simp [hp])]; simp [ih, h a hp]

theorem filterMap_filter' {α β : Type} {f : α → Option β} {p : α → Bool} (l : List α)
    (h : ∀ a, p a = false → f a = none) : (l.filter p).filterMap f = l.filterMap f := by
  induction l with
  | nil => rfl
  | cons a l ih =>
    cases hp : p a with
    | true => rw [List.filter_cons_of_pos hp]; simp [List.filterMap_cons, ih]
    | false => rw [List.filter_cons_of_neg (by simp [hp])]; simp [ih, h a hp]

/-- The non-custom sections. -/
def plain (ss : List Section) : List Section := ss.filter (fun s => s.kind ≠ .Custom)

theorem plain_false {s : Section} (h : decide (s.kind ≠ .Custom) = false) : ∃ c, s = .custom c :=
  kind_custom_of (by simpa using h)

theorem plain_typesOf (ss : List Section) : typesOf (plain ss) = typesOf ss :=
  flatMap_filter ss fun s h => by obtain ⟨c, rfl⟩ := plain_false h; rfl
theorem plain_importsOf (ss : List Section) : importsOf (plain ss) = importsOf ss :=
  flatMap_filter ss fun s h => by obtain ⟨c, rfl⟩ := plain_false h; rfl
theorem plain_typeIdxsOf (ss : List Section) : typeIdxsOf (plain ss) = typeIdxsOf ss :=
  flatMap_filter ss fun s h => by obtain ⟨c, rfl⟩ := plain_false h; rfl
theorem plain_tablesOf (ss : List Section) : tablesOf (plain ss) = tablesOf ss :=
  flatMap_filter ss fun s h => by obtain ⟨c, rfl⟩ := plain_false h; rfl
theorem plain_memsOf (ss : List Section) : memsOf (plain ss) = memsOf ss :=
  flatMap_filter ss fun s h => by obtain ⟨c, rfl⟩ := plain_false h; rfl
theorem plain_tagsOf (ss : List Section) : tagsOf (plain ss) = tagsOf ss :=
  flatMap_filter ss fun s h => by obtain ⟨c, rfl⟩ := plain_false h; rfl
theorem plain_globalsOf (ss : List Section) : globalsOf (plain ss) = globalsOf ss :=
  flatMap_filter ss fun s h => by obtain ⟨c, rfl⟩ := plain_false h; rfl
theorem plain_exportsOf (ss : List Section) : exportsOf (plain ss) = exportsOf ss :=
  flatMap_filter ss fun s h => by obtain ⟨c, rfl⟩ := plain_false h; rfl
theorem plain_elemsOf (ss : List Section) : elemsOf (plain ss) = elemsOf ss :=
  flatMap_filter ss fun s h => by obtain ⟨c, rfl⟩ := plain_false h; rfl
theorem plain_codesOf (ss : List Section) : codesOf (plain ss) = codesOf ss :=
  flatMap_filter ss fun s h => by obtain ⟨c, rfl⟩ := plain_false h; rfl
theorem plain_datasOf (ss : List Section) : datasOf (plain ss) = datasOf ss :=
  flatMap_filter ss fun s h => by obtain ⟨c, rfl⟩ := plain_false h; rfl
theorem plain_startOf (ss : List Section) : startOf (plain ss) = startOf ss :=
  congrArg List.head? <|
    filterMap_filter' ss fun s h => by obtain ⟨c, rfl⟩ := plain_false h; rfl
theorem plain_dataCountOf (ss : List Section) : dataCountOf (plain ss) = dataCountOf ss :=
  congrArg List.head? <|
    filterMap_filter' ss fun s h => by obtain ⟨c, rfl⟩ := plain_false h; rfl
theorem plain_nonCustom (ss : List Section) : nonCustom (plain ss) = nonCustom ss := by
  simp only [nonCustom, plain, List.filter_map, List.filter_filter]
  congr 1
  apply List.filter_congr
  simp

theorem plain_wf {ss : List Section} : WellFormed (plain ss) ↔ WellFormed ss := by
  constructor <;> rintro ⟨h1, h2, h3, h4⟩
  · exact ⟨by rwa [plain_nonCustom] at h1, by rwa [plain_typeIdxsOf, plain_codesOf] at h2,
      by rwa [plain_dataCountOf, plain_datasOf] at h3,
      by rwa [plain_codesOf, plain_dataCountOf] at h4⟩
  · exact ⟨by rwa [plain_nonCustom], by rwa [plain_typeIdxsOf, plain_codesOf],
      by rwa [plain_dataCountOf, plain_datasOf], by rwa [plain_codesOf, plain_dataCountOf]⟩

theorem sameNonCustom_plain {a b : List (UInt32 × Section)} (h : SameNonCustom a b) :
    plain (a.map Prod.snd) = plain (b.map Prod.snd) := by
  have := congrArg (List.map Prod.snd) h
  simpa [plain, List.filter_map, Function.comp_def] using this

/-- C22: two inputs whose sections differ in custom sections only are both accepted or both
rejected, and the modules agree in everything but the custom sections and the header list. -/
theorem c22_custom {S : Type} [LawfulRead S] {r : R} {s : S} {b1 b2 : Bytes}
    {s1 s2 : List (UInt32 × Section)} (h1 : BSeq BSection b1 s1) (h2 : BSeq BSection b2 s2)
    (hsame : SameNonCustom s1 s2) (hr : avail r = preamble ++ b1) (hs : avail s = preamble ++ b2)
    (hf : fin s = .eof) {m : Module} {r' : R} (h : decodeModule r = (.ok m, r')) :
    ∃ s', decodeModule s = (.ok { m with
      custom_sections := customsOf (s2.map Prod.snd)
      section_headers := s2.map (fun x => ⟨x.2.kind, x.1⟩) }, s') := by
  have hm := c17_sound h
  generalize hbs : avail r = bs at hm
  cases hm with
  | @mk b secs hb hw =>
    rw [hr] at hbs
    have := List.append_cancel_left hbs
    subst this
    have := sections_unique hb h1
    subst this
    have hp := sameNonCustom_plain hsame
    have hw2 : WellFormed (s2.map Prod.snd) := by rw [← plain_wf, ← hp, plain_wf]; exact hw
    have := c18_complete (r := s) (by rw [hs]; exact BModule.mk h2 hw2) hf
    have he : assemble s2 = { assemble secs with
        custom_sections := customsOf (s2.map Prod.snd)
        section_headers := s2.map (fun x => ⟨x.2.kind, x.1⟩) } := by
      simp only [assemble]
      rw [← plain_typesOf, ← plain_importsOf, ← plain_typeIdxsOf, ← plain_tablesOf, ← plain_memsOf,
        ← plain_tagsOf, ← plain_globalsOf, ← plain_exportsOf, ← plain_elemsOf, ← plain_codesOf,
        ← plain_datasOf, ← plain_startOf, ← plain_dataCountOf, ← plain_nonCustom, ← hp,
        plain_typesOf, plain_importsOf, plain_typeIdxsOf, plain_tablesOf, plain_memsOf,
        plain_tagsOf, plain_globalsOf, plain_exportsOf, plain_elemsOf, plain_codesOf,
        plain_datasOf, plain_startOf, plain_dataCountOf, plain_nonCustom]
    rw [← he]
    exact this

theorem BSeq.append {α : Type} {B : Bytes → α → Prop} {a b : Bytes} {xs ys : List α}
    (h1 : BSeq B a xs) (h2 : BSeq B b ys) : BSeq B (a ++ b) (xs ++ ys) := by
  induction h1 with
  | nil => exact h2
  | cons h _ ih => rw [List.append_assoc]; exact .cons h ih

/-- C22: a custom section inserted at a section boundary, whatever follows, does not change whether
the input is accepted, nor anything but the custom sections and the headers. -/
theorem c22_insert {S : Type} [LawfulRead S] {r : R} {s : S} {a c b : Bytes}
    {sa : List (UInt32 × Section)} {size : UInt32} {cs : CustomSection} (ha : BSeq BSection a sa)
    (hc : BSection c (size, .custom cs)) (hr : avail r = preamble ++ (a ++ b))
    (hs : avail s = preamble ++ (a ++ (c ++ b))) (hfr : fin r = .eof) (hfs : fin s = .eof) :
    (∀ m r', decodeModule r = (.ok m, r') → ∃ cl cr hl hr s',
      m.custom_sections = cl ++ cr ∧ m.section_headers = hl ++ hr ∧
      hl = sa.map (fun x => ⟨x.2.kind, x.1⟩) ∧
      decodeModule s = (.ok { m with
        custom_sections := cl ++ cs :: cr
        section_headers := hl ++ ⟨.Custom, size⟩ :: hr }, s')) ∧
    ((∃ m r', decodeModule r = (.ok m, r')) ↔ ∃ m s', decodeModule s = (.ok m, s')) := by
  have split : ∀ {bs m} {tail : Bytes}, BModule bs m → bs = preamble ++ (a ++ tail) →
      ∃ sb, BSeq BSection tail sb ∧ m = assemble (sa ++ sb) := by
    intro bs m tail hm he
    cases hm with
    | @mk b' secs hb hw =>
      have := List.append_cancel_left he
      subst this
      obtain ⟨sb, rfl, hsb⟩ := sections_prefix ha hb
      exact ⟨sb, hsb, rfl⟩
  have same : ∀ sb, SameNonCustom (sa ++ sb) (sa ++ (size, .custom cs) :: sb) := by
    intro sb
    simp [SameNonCustom, Section.kind]
  have fwd : ∀ m r', decodeModule r = (.ok m, r') → ∃ cl cr hl hr s',
      m.custom_sections = cl ++ cr ∧ m.section_headers = hl ++ hr ∧
      hl = sa.map (fun x => ⟨x.2.kind, x.1⟩) ∧
      decodeModule s = (.ok { m with
        custom_sections := cl ++ cs :: cr
        section_headers := hl ++ ⟨.Custom, size⟩ :: hr }, s') := by
    intro m r' h
    obtain ⟨sb, hsb, rfl⟩ := split (c17_sound h) hr
    obtain ⟨s', h'⟩ := c22_custom (BSeq.append ha hsb) (BSeq.append ha (BSeq.cons hc hsb)) (same sb)
      hr hs hfs h
    refine ⟨customsOf (sa.map Prod.snd), customsOf (sb.map Prod.snd),
      sa.map (fun x => ⟨x.2.kind, x.1⟩), sb.map (fun x => ⟨x.2.kind, x.1⟩), s', ?_, ?_, rfl, ?_⟩
    · simp [assemble, customsOf]
    · simp [assemble]
    · rw [h']
      simp [customsOf, Section.kind]
  refine ⟨fwd, ?_, ?_⟩
  · rintro ⟨m, r', h⟩
    obtain ⟨_, _, _, _, s', _, _, _, h'⟩ := fwd m r' h
    exact ⟨_, s', h'⟩
  · rintro ⟨m, s', h⟩
    obtain ⟨sb, hsb, rfl⟩ := split (c17_sound h) hs
    generalize hcb : c ++ b = cb at hsb
    cases hsb with
    | nil =>
      have : c = [] := (List.append_eq_nil_iff.1 hcb).1
      exact absurd this (BSection.ne_nil hc)
    | @cons c2 d2 y ys hy hsb =>
      obtain ⟨rfl, rfl⟩ := c35_section hc hy hcb
      have := List.append_cancel_left hcb
      subst this
      obtain ⟨r', h'⟩ := c22_custom (r := s) (s := r)
        (BSeq.append ha (BSeq.cons hc hsb)) (BSeq.append ha hsb) (same ys).symm hs hr hfr h
      exact ⟨_, r', h'⟩

end

end Wadec
