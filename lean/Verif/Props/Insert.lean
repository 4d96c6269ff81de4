import Verif.Proof.Insert
import Verif.Props.Splice

/-! C76: inserting and removing sections. -/

namespace Wadec

open Spec LawfulRead

/-- Inserting the section `E` behind the sections `secs` of an accepted module is accepted exactly if the kinds are then
still in order and the side conditions hold, and the module then has the section's contents and record in addition.
Removing it is accepted exactly if the side conditions hold without it, and the module is then the one without its
contents and record. -/
def Insertable (E : SectionEdit) : Prop :=
  ∀ {R S : Type} [LawfulRead R] [LawfulRead S] {r : R} {s : S} {b1 sec rest : Bytes} {secs : List (UInt32 × Section)} {size : UInt32},
    BSeq BSection b1 secs → BSection sec (size, E.contents) →
    avail r = preamble ++ (b1 ++ rest) → fin r = .eof →
    avail s = preamble ++ (b1 ++ (sec ++ rest)) → fin s = .eof →
    (∀ m r', decodeModule r = (.ok m, r') →
      let kinds := m.parsed_section_kinds.insertIdx (nonCustom (secs.map Prod.snd)).length E.contents.kind
      (List.Sublist kinds sectionOrder ∧ E.mayAdd m → ∃ s', decodeModule s = (.ok (record secs E.contents.kind size (E.add m)), s')) ∧
      (¬ (List.Sublist kinds sectionOrder ∧ E.mayAdd m) → ∀ m' s', decodeModule s ≠ (.ok m', s'))) ∧
    (∀ m' s', decodeModule s = (.ok m', s') →
      (E.mayRemove m' → ∃ r', decodeModule r = (.ok (unrecord secs (E.remove m')), r')) ∧
      (¬ E.mayRemove m' → ∀ m r', decodeModule r ≠ (.ok m, r')))

theorem cut_section {b1 rest : Bytes} {secs : List (UInt32 × Section)} {m : Module}
    (hm : BModule (preamble ++ (b1 ++ rest)) m) (hb1 : BSeq BSection b1 secs) :
    ∃ tl, BSeq BSection rest tl ∧ WellFormed ((secs ++ tl).map Prod.snd) ∧ m = assemble (secs ++ tl) := by
  generalize hb : preamble ++ (b1 ++ rest) = b at hm
  cases hm with
  | @mk bs ss hs hw =>
    have hb := List.append_cancel_left hb
    subst hb
    obtain ⟨tl, rfl, ht⟩ := sections_prefix hb1 hs
    exact ⟨tl, ht, hw, rfl⟩

theorem insertable {E : SectionEdit} (hE : Addable E) : Insertable E := by
  intro R S _ _ r s b1 sec rest secs size hb hsec hr hfr hs hfs
  constructor
  · intro m r' h
    have hm := c17_sound h
    rw [hr] at hm
    obtain ⟨tl, ht, hw, rfl⟩ := cut_section hm hb
    have hkinds : (assemble (secs ++ tl)).parsed_section_kinds.insertIdx (nonCustom (secs.map Prod.snd)).length E.contents.kind =
        nonCustom (secs.map Prod.snd) ++ E.contents.kind :: nonCustom (tl.map Prod.snd) := by
      simp only [assemble, List.map_append, kinds_append]
      exact insert_behind rfl
    simp only [hkinds]
    constructor
    · rintro ⟨ho, ha⟩
      have hw' := (hE.may (z := size) hw ho).2 ha
      refine c18_complete ?_ hfs
      rw [hs, ← hE.adds hw hw']
      exact .mk (seq_append hb (.cons hsec ht)) hw'
    · intro hn m' s' hd
      have hm' := c17_sound hd
      rw [hs] at hm'
      obtain ⟨tl', ht', hw', rfl⟩ := swap_section hm' hb hsec
      obtain ⟨rfl⟩ : tl' = tl := sections_unique ht' ht
      have ho := hw'.order
      rw [List.map_append, List.map_cons, kinds_insert hE.kind] at ho
      exact hn ⟨ho, (hE.may hw ho).1 hw'⟩
  · intro m' s' h
    have hm' := c17_sound h
    rw [hs] at hm'
    obtain ⟨tl, ht, hw', rfl⟩ := swap_section hm' hb hsec
    constructor
    · intro ha
      have hw := (hE.mayNot hw').2 ha
      refine c18_complete ?_ hfr
      rw [hr, hE.adds hw hw', hE.undo, unrecord_record, hE.gone hw']
      exact .mk (seq_append hb ht) hw
    · intro hn m r' hd
      have hm := c17_sound hd
      rw [hr] at hm
      obtain ⟨tl', ht', hw, rfl⟩ := cut_section hm hb
      obtain ⟨rfl⟩ : tl' = tl := sections_unique ht' ht
      exact hn ((hE.mayNot hw').1 hw)

/-- C76: sections that are subject to no side condition but the order. -/
theorem c76_sections : (∀ l, Insertable (insTypes l)) ∧ (∀ l, Insertable (insImports l)) ∧ (∀ l, Insertable (insTables l)) ∧
    (∀ l, Insertable (insMems l)) ∧ (∀ l, Insertable (insTags l)) ∧ (∀ l, Insertable (insGlobals l)) ∧
    (∀ l, Insertable (insExports l)) ∧ (∀ x, Insertable (insStart x)) ∧ (∀ l, Insertable (insElems l)) :=
  ⟨fun _ => insertable (addable_types _), fun _ => insertable (addable_imports _), fun _ => insertable (addable_tables _),
    fun _ => insertable (addable_mems _), fun _ => insertable (addable_tags _), fun _ => insertable (addable_globals _),
    fun _ => insertable (addable_exports _), fun _ => insertable (addable_start _), fun _ => insertable (addable_elems _)⟩

/-- C76: the data count section and the data section, which must agree. -/
theorem c76_datas : (∀ n, Insertable (insDataCount n)) ∧ (∀ l, Insertable (insDatas l)) :=
  ⟨fun _ => insertable (addable_dataCount _), fun _ => insertable (addable_datas _)⟩

/-- C76: a function section or a code section by itself. -/
theorem c76_alone : (∀ l, Insertable (insFuncTypes l)) ∧ (∀ l, Insertable (insCodes l)) :=
  ⟨fun _ => insertable (addable_typeIdxs _), fun _ => insertable (addable_codes _)⟩

/-- C76: a function section and a code section together. Inserting them is accepted exactly if the kinds are then in
order, they declare as many functions as they define, and a data count section is there if they refer to data segments;
removing them is always accepted. -/
theorem c76_functions {R S : Type} [LawfulRead R] [LawfulRead S] {r : R} {s : S} {b1 fsec b2 csec rest : Bytes}
    {secs1 secs2 : List (UInt32 × Section)} {z1 z2 : UInt32} {xs : List TypeIdx} {cs : List CodeEntry}
    (hb1 : BSeq BSection b1 secs1) (hfs : BSection fsec (z1, .function xs)) (hb2 : BSeq BSection b2 secs2)
    (hcs : BSection csec (z2, .code cs))
    (hr : avail r = preamble ++ (b1 ++ (b2 ++ rest))) (hr' : fin r = .eof)
    (hs : avail s = preamble ++ (b1 ++ (fsec ++ (b2 ++ (csec ++ rest))))) (hs' : fin s = .eof) :
    (∀ m r', decodeModule r = (.ok m, r') →
      let m' := record secs1 .Function z1 (record (secs1 ++ secs2) .Code z2 { m with funcs := List.zipWith mkFunc xs cs })
      let ok := List.Sublist m'.parsed_section_kinds sectionOrder ∧ xs.length = cs.length ∧
        ((∃ x ∈ cs, ∃ i ∈ x.body, UsesData i) → m.data_count ≠ none)
      (ok → ∃ s', decodeModule s = (.ok m', s')) ∧ (¬ ok → ∀ m'' s', decodeModule s ≠ (.ok m'', s'))) ∧
    (∀ m' s', decodeModule s = (.ok m', s') →
      ∃ r', decodeModule r = (.ok { unrecord (secs1 ++ secs2) (unrecord secs1 m') with funcs := [] }, r')) := by
  have regroup : ∀ {x : UInt32 × Section} {tl}, (secs1 ++ x :: secs2) ++ tl = secs1 ++ x :: (secs2 ++ tl) := by simp
  have split : ∀ {m'}, BModule (preamble ++ (b1 ++ (fsec ++ (b2 ++ (csec ++ rest))))) m' → ∃ tl, BSeq BSection rest tl ∧
      WellFormed ((secs1 ++ (z1, .function xs) :: (secs2 ++ (z2, .code cs) :: tl)).map Prod.snd) ∧
      m' = assemble (secs1 ++ (z1, .function xs) :: (secs2 ++ (z2, .code cs) :: tl)) := by
    intro m' hm
    have e : preamble ++ (b1 ++ (fsec ++ (b2 ++ (csec ++ rest)))) = preamble ++ ((b1 ++ (fsec ++ b2)) ++ (csec ++ rest)) := by
      simp only [List.append_assoc]
    rw [e] at hm
    obtain ⟨tl, h1, h2, h3⟩ := swap_section hm (seq_append hb1 (.cons hfs hb2)) hcs
    rw [regroup] at h2 h3
    exact ⟨tl, h1, h2, h3⟩
  constructor
  · intro m r' h
    have hm := c17_sound h
    rw [hr, ← List.append_assoc b1] at hm
    obtain ⟨tl, ht, hw, rfl⟩ := cut_section hm (seq_append hb1 hb2)
    rw [List.append_assoc] at hw ⊢
    have hkinds : (record secs1 .Function z1 (record (secs1 ++ secs2) .Code z2
        { assemble (secs1 ++ (secs2 ++ tl)) with funcs := List.zipWith mkFunc xs cs })).parsed_section_kinds =
        nonCustom (secs1.map Prod.snd) ++ .Function :: (nonCustom (secs2.map Prod.snd) ++ .Code :: nonCustom (tl.map Prod.snd)) := by
      simp only [record, assemble, List.map_append, kinds_append]
      rw [← List.append_assoc, insert_behind rfl, List.append_assoc, insert_behind rfl]
    have hpair : WellFormed ((secs1 ++ (z1, .function xs) :: (secs2 ++ (z2, .code cs) :: tl)).map Prod.snd) ↔
        WellFormed (secs1.map Prod.snd ++ (secs2.map Prod.snd ++ tl.map Prod.snd)) ∧
        List.Sublist (nonCustom (secs1.map Prod.snd) ++ .Function :: (nonCustom (secs2.map Prod.snd) ++ .Code :: nonCustom (tl.map Prod.snd))) sectionOrder ∧
        xs.length = cs.length ∧ ((∃ x ∈ cs, ∃ i ∈ x.body, UsesData i) →
          dataCountOf (secs1.map Prod.snd ++ (secs2.map Prod.snd ++ tl.map Prod.snd)) ≠ none) := by
      simp only [List.map_append, List.map_cons]; exact wf_pair
    simp only [List.map_append] at hw
    simp only [hkinds]
    constructor
    · rintro ⟨ho, hl, hi⟩
      have hw' := hpair.2 ⟨hw, ho, hl, by simpa only [assemble, List.map_append] using hi⟩
      refine c18_complete ?_ hs'
      rw [hs, ← (assemble_pair hw').1]
      exact .mk (seq_append hb1 (.cons hfs (seq_append hb2 (.cons hcs ht)))) hw'
    · intro hn m'' s' hd
      have hm' := c17_sound hd
      rw [hs] at hm'
      obtain ⟨tl', ht', hw', rfl⟩ := split hm'
      obtain ⟨rfl⟩ : tl' = tl := sections_unique ht' ht
      obtain ⟨-, ho, hl, hi⟩ := hpair.1 hw'
      exact hn ⟨ho, hl, by simpa only [assemble, List.map_append] using hi⟩
  · intro m' s' h
    have hm' := c17_sound h
    rw [hs] at hm'
    obtain ⟨tl, ht, hw', rfl⟩ := split hm'
    obtain ⟨e, hn⟩ := assemble_pair hw'
    refine c18_complete ?_ hr'
    simp only [List.map_append, List.map_cons] at hw'
    have hw := (wf_pair.1 hw').1
    rw [hr, e, unrecord_record, unrecord_record]
    have e2 : ({ ({ assemble (secs1 ++ (secs2 ++ tl)) with funcs := List.zipWith mkFunc xs cs } : Module) with funcs := [] } : Module) =
        assemble (secs1 ++ (secs2 ++ tl)) := by
      generalize assemble (secs1 ++ (secs2 ++ tl)) = m at hn
      cases m; cases hn; rfl
    rw [e2]
    exact .mk (seq_append hb1 (seq_append hb2 ht)) (by simpa only [List.map_append] using hw)

/-! ### Instances -/

/-- The sections of the sample module up to its data count section, and those behind it. -/
def upTo : Bytes := secCustom ++ (secType ++ (secFunction ++ (secGlobal ++ secCustom)))
def behind : Bytes := secCode ++ (secData ++ secCustom)

theorem bUpTo : BSeq BSection upTo (secsA.take 5) := .cons bCustom (.cons bType (.cons bFunction (.cons bGlobal (seq1 bCustom))))

theorem okA : ∃ s', decodeModule (Src.ofBytes (preamble ++ bytesA)) = (.ok (assemble secsA), s') :=
  c18_complete (by rw [avail_ofBytes]; exact bModA) rfl

/-- Without its data count section, the sample module, whose code refers to a data segment, is rejected. -/
example : ∀ m r', decodeModule (Src.ofBytes (preamble ++ (upTo ++ behind))) ≠ (.ok m, r') := by
  obtain ⟨s', h⟩ := okA
  refine ((c76_datas.1 1 bUpTo bDataCount (avail_ofBytes (preamble ++ (upTo ++ behind))) rfl
    (s := Src.ofBytes (preamble ++ bytesA)) ?_ rfl).2 _ _ h).2 ?_
  · rw [avail_ofBytes]; decide
  · exact fun hn => hn ⟨_, List.mem_singleton.2 rfl, _, List.mem_singleton.2 rfl, .block (List.mem_singleton.2 rfl) .dataDrop⟩

/-- A start section: function 0. -/
theorem bStartA : BSection [0x08, 0x01, 0x00] (1, .start ⟨0⟩) :=
  .mk (b1 := [0x01]) (b2 := [0x00]) (s := .start ⟨0⟩) ((c07_u32 1 _).2 ⟨1, by decide⟩) rfl (.start ((c07_u32 0 [0x00]).2 ⟨1, by decide⟩))

/-- A start section inserted in front of the data count section gives the sample module a start function; at the end
of the module it is out of order. -/
example : (∃ s', decodeModule (Src.ofBytes (preamble ++ (upTo ++ ([0x08, 0x01, 0x00] ++ (secDataCount ++ behind))))) =
      (.ok (record (secsA.take 5) .Start 1 { assemble secsA with start := some ⟨0⟩ }), s')) ∧
    (∀ m' s', decodeModule (Src.ofBytes (preamble ++ (bytesA ++ ([0x08, 0x01, 0x00] ++ [])))) ≠ (.ok m', s')) := by
  obtain ⟨s', h⟩ := okA
  have hins : Insertable (insStart ⟨0⟩) := c76_sections.2.2.2.2.2.2.2.1 ⟨0⟩
  constructor
  · refine ((hins (r := Src.ofBytes (preamble ++ bytesA)) bUpTo bStartA ?_ rfl (avail_ofBytes _) rfl).1 _ _ h).1 ⟨by decide, trivial⟩
    rw [avail_ofBytes]; decide
  · refine ((hins (r := Src.ofBytes (preamble ++ bytesA)) (rest := []) bSecsA bStartA ?_ rfl (avail_ofBytes _) rfl).1 _ _ h).2 ?_
    · rw [avail_ofBytes, List.append_nil]
    · rintro ⟨ho, -⟩; revert ho; decide

/-- An empty code section may be added to a module without functions, one with an entry may not. -/
example : (∃ s', decodeModule (Src.ofBytes (preamble ++ (secType ++ ([0x0A, 0x01, 0x00] ++ [])))) =
      (.ok (record [(4, .type [recA])] .Code 1 (assemble [(4, .type [recA])])), s')) ∧
    (∀ m' s', decodeModule (Src.ofBytes (preamble ++ (secType ++ (secCode ++ [])))) ≠ (.ok m', s')) := by
  obtain ⟨r', h⟩ := c18_complete (r := Src.ofBytes (preamble ++ secType)) (m := assemble [(4, .type [recA])])
    (by rw [avail_ofBytes]; exact .mk (seq1 bType) ⟨by decide, by decide, nofun, by rintro ⟨_, hc, _⟩; cases hc⟩) rfl
  have b0 : BSection [0x0A, 0x01, 0x00] (1, .code []) :=
    .mk (b1 := [0x01]) (b2 := [0x00]) (s := .code []) ((c07_u32 1 _).2 ⟨1, by decide⟩) rfl (.code emptyList)
  have ha : avail (Src.ofBytes (preamble ++ secType)) = preamble ++ (secType ++ []) := by rw [avail_ofBytes, List.append_nil]
  have h0 : Insertable (insCodes []) := c76_alone.2 []
  have h1 : Insertable (insCodes [codeA]) := c76_alone.2 [codeA]
  exact ⟨((h0 (seq1 bType) b0 ha rfl (avail_ofBytes _) rfl).1 _ _ h).1 ⟨by decide, rfl⟩,
    ((h1 (seq1 bType) bCode ha rfl (avail_ofBytes _) rfl).1 _ _ h).2 fun hn => nomatch hn.2⟩

/-- The sample module stripped of its functions. -/
example : ∃ r', decodeModule (Src.ofBytes (preamble ++ ((secCustom ++ secType) ++ ((secGlobal ++ (secCustom ++ secDataCount)) ++ (secData ++ secCustom))))) =
    (.ok { unrecord (secsA.take 2 ++ (secsA.drop 3).take 3) (unrecord (secsA.take 2) (assemble secsA)) with funcs := [] }, r') := by
  obtain ⟨s', h⟩ := okA
  refine (c76_functions (R := Src) (s := Src.ofBytes (preamble ++ bytesA)) (.cons bCustom (seq1 bType)) bFunction (.cons bGlobal (.cons bCustom (seq1 bDataCount))) bCode (avail_ofBytes _) rfl
    ?_ rfl).2 _ _ h
  rw [avail_ofBytes]; decide

end Wadec
