import Verif.Props.Module

/-! C24, C25, C27, C28, C39, C40: counts, sizes and the preamble. -/

namespace Wadec

open LawfulRead Spec

section
variable {R : Type} [LawfulRead R]

/-! ### Functions and code -/

theorem zipWith_mkFunc_get {xs : List TypeIdx} {cs : List CodeEntry} {i : Nat} {f : Func}
    (h : (List.zipWith mkFunc xs cs)[i]? = some f) :
    xs[i]? = some f.«type» ∧ cs[i]? = some ⟨f.locals, f.body⟩ := by
  rw [List.getElem?_zipWith] at h
  cases hx : xs[i]? with
  | none => rw [hx] at h; cases h
  | some x =>
    cases hc : cs[i]? with
    | none => rw [hx, hc] at h; cases h
    | some c =>
      rw [hx, hc] at h
      cases h
      exact ⟨rfl, rfl⟩

/-- C24: in an accepted module the functions are as many as the entries of the function section
and of the code section, and function `i` has the `i`-th type index and the locals and body of the
`i`-th code entry. -/
theorem c24_functions {r r' : R} {m : Module} (h : decodeModule r = (.ok m, r')) :
    ∃ bs secs, avail r = preamble ++ bs ∧ BSeq BSection bs secs ∧
      m.funcs.length = (typeIdxsOf (secs.map Prod.snd)).length ∧
      m.funcs.length = (codesOf (secs.map Prod.snd)).length ∧
      ∀ (i : Nat) (f : Func), m.funcs[i]? = some f →
        (typeIdxsOf (secs.map Prod.snd))[i]? = some f.«type» ∧
        (codesOf (secs.map Prod.snd))[i]? = some ⟨f.locals, f.body⟩ := by
  have := c17_sound h
  generalize avail r = inp at this
  cases this with
  | @mk bs secs hb hw =>
    have hf := hw.funcs
    refine ⟨bs, secs, rfl, hb, ?_, ?_, fun i f hi => zipWith_mkFunc_get hi⟩
    · simp only [assemble, List.length_zipWith]; omega
    · simp only [assemble, List.length_zipWith]; omega

theorem code_fails {k : LoopState} {bs : Bytes} {cs : List CodeEntry} (h : BContents bs (.code cs))
    (hl : cs.length ≠ k.module.funcs.length) :
    Fails (R := R) (decodeSectionBody .Code k) bs
      (.CodeFuncEntriesLenMismatch cs.length k.module.funcs.length) := by
  cases h with
  | code h =>
    obtain ⟨ds, hds, rfl⟩ := list_unmap Code.toEntry (fun _ _ h => BCode.toBCodeD h) h
    rw [List.length_map] at hl ⊢
    rw [← List.append_nil bs]
    exact Fails.bind2 (Runs.mapErr (Runs.mapErr (list_runs (fun _ _ => code_runs) hds)))
      (Fails.ite_pos hl Fails.err)

theorem data_fails {k : LoopState} {bs : Bytes} {ds : List Data} {n : UInt32}
    (h : BContents bs (.data ds)) (hn : k.module.data_count = some n) (hl : ds.length ≠ n.toNat) :
    Fails (R := R) (decodeSectionBody .Data k) bs (.DataCountMismatch ds.length n) := by
  cases h with
  | data h =>
    rw [← List.append_nil bs]
    refine Fails.bind2 (Runs.mapErr (Runs.mapErr (list_runs (fun _ _ => data_runs) h))) ?_
    simp only [hn]
    exact Fails.ite_pos hl Fails.err

/-- An error of the contents is the error of the section. -/
theorem section_body_fails {pre : List (UInt32 × Section)} {k : SectionKind} {size : UInt32}
    {bs rest : Bytes} {e : DecodeModuleError} (hacc : Acceptable (pre.map Prod.snd))
    (hm : MayFollow (pre.map Prod.snd) k) (hlen : bs.length ≤ size.toNat)
    (hf : Fails (R := Take R) (decodeSectionBody k (stateOf pre)) bs e) {r : R}
    (ha : avail r = bs ++ rest) : ∃ r', decodeSection ⟨k, size⟩ (stateOf pre) r = (.err e, r') := by
  rcases validate_kind (R := R) k (sorted_iff.2 hacc.order) with ⟨_, hv⟩ | ⟨hn, _⟩
  · rw [section_eq ⟨k, size⟩ _ hv]
    exact Fails.bind1 (Fails.withTake hlen hf) r rest ha
  · obtain ⟨s, rfl⟩ := exists_kind k
    exact absurd (mayFollow_iff.1 hm) (hn s rfl)

theorem stateOf_noCode {pre : List (UInt32 × Section)}
    (hm : MayFollow (pre.map Prod.snd) .Code) :
    (stateOf pre).module.funcs.length = (typeIdxsOf (pre.map Prod.snd)).length := by
  refine stateOf_funcs_length' fun s hs hk => ?_
  have := Sorted.before (s := .code []) (mayFollow_iff.1 hm) (by simp [Section.kind]) s hs
  rw [hk] at this
  exact absurd this (Nat.lt_irrefl _)

/-- C24: an input is rejected with `CodeFuncEntriesLenMismatch` exactly when a code section whose
number of entries differs from that of the function section occurs at its place, or the input ends
without a code section although functions were declared; the error carries both counts. -/
theorem c24_mismatch {r : R} {c f : Nat} :
    (∃ r', decodeModule r = (.err (.CodeFuncEntriesLenMismatch c f), r')) ↔
    (∃ secs size content rest cs, AtSection (avail r) secs .Code size (content ++ rest) ∧
      MayFollow secs .Code ∧ BContents content (.code cs) ∧ content.length ≤ size.toNat ∧
      c = cs.length ∧ f = (typeIdxsOf secs).length ∧ c ≠ f) ∨
    (∃ secs, AtEnd (avail r) secs ∧ (fin r).toErr = .unexpectedEof ∧
      (∀ s ∈ secs, s.kind ≠ .Code) ∧ c = 0 ∧ f = (typeIdxsOf secs).length ∧ c ≠ f) := by
  constructor
  · rintro ⟨r', h⟩
    cases module_err h with
    | @sect _ secs bs k' size b1 r1 hb hacc h1 a he =>
      generalize hx : DecodeModuleError.CodeFuncEntriesLenMismatch c f = e at he
      cases he with
      | @body _ t ht ho hd =>
        subst hx
        have := body_err hd
        generalize hx : DecodeModuleError.CodeFuncEntriesLenMismatch c f = e at this
        cases this with
        | inner hi => subst hx; simp [DecodeModuleError.inner] at hi
        | @code cs content hk ha hc hl =>
          simp only at hk
          subst hk
          simp only [DecodeModuleError.CodeFuncEntriesLenMismatch.injEq] at hx
          have hm : MayFollow (secs.map Prod.snd) .Code := by
            have := ho (.code cs) rfl
            exact mayFollow_iff.2 this
          have hfl := stateOf_noCode hm
          refine .inl ⟨secs.map Prod.snd, size, content, avail t.inner, cs, ?_, hm, hc, ?_, hx.1, ?_, ?_⟩
          · have := AtSection.mk (rest := avail r1) (k := .Code) hb hacc h1
            rw [adv_avail ha.2] at this
            rw [adv_avail a, adv_avail ha.2]
            simpa using this
          · have := ha.1; simp only at this; omega
          · rw [hx.2, hfl]
          · rw [hx.1, hx.2]; exact hl
        | data => cases hx
      | duplicate => cases hx
      | order => cases hx
      | size => cases hx
      | customSize => cases hx
    | @final _ secs bs ha hb hacc hf he =>
      generalize hx : DecodeModuleError.CodeFuncEntriesLenMismatch c f = e at he
      cases he with
      | code hn hne =>
        simp only [DecodeModuleError.CodeFuncEntriesLenMismatch.injEq] at hx
        refine .inr ⟨secs.map Prod.snd, by rw [ha]; exact AtEnd.mk hb hacc, hf, hn, hx.1, hx.2, ?_⟩
        rw [hx.1, hx.2]
        intro h0
        exact hne (List.length_eq_zero_iff.1 h0.symm)
      | dataCount => cases hx
      | dataIdx => cases hx
  · rintro (⟨secs, size, content, rest, cs, hat, hm, hc, hlen, rfl, rfl, hne⟩ |
      ⟨secs, hat, hf, hn, rfl, rfl, hne⟩)
    · obtain ⟨secs', r1, rfl, hacc, hav, _, he⟩ := at_section hat
      have hl := stateOf_noCode hm
      obtain ⟨r', h'⟩ := section_body_fails (size := size) hacc hm hlen
        (code_fails (k := stateOf secs') hc (by rw [hl]; exact hne)) hav
      rw [hl] at h'
      exact ⟨r', he _ _ h'⟩
    · generalize ha : avail r = inp at hat
      cases hat with
      | @mk bs secs hb hacc =>
        obtain ⟨r1, h1⟩ := module_at_end hb hacc ha hf
        rw [end_final (EndErr.code hn (by intro h0; rw [h0] at hne; exact hne rfl))] at h1
        exact ⟨_, h1⟩

/-- C25: no function of an accepted module has 2^32 or more locals. -/
theorem c25_module {r r' : R} {m : Module} (h : decodeModule r = (.ok m, r')) :
    ∀ f ∈ m.funcs, f.locals.length < 2 ^ 32 := by
  have := c17_sound h
  generalize avail r = inp at this
  cases this with
  | @mk bs secs hb hw =>
    have hcodes : ∀ c ∈ codesOf (secs.map Prod.snd), c.locals.length < 2 ^ 32 := by
      have hseq : ∀ {b : Bytes} {cs : List CodeEntry}, BSeq BCode b cs →
          ∀ c ∈ cs, c.locals.length < 2 ^ 32 := by
        intro b cs hs
        induction hs with
        | nil => simp
        | cons hc _ ih =>
          intro c hm
          rcases List.mem_cons.1 hm with rfl | hm
          · cases hc with
            | mk _ hf => cases hf with | mk _ _ hl => exact hl
          · exact ih c hm
      clear hw h
      induction hb with
      | nil => simp [codesOf]
      | cons hx _ ih =>
        cases hx with
        | @mk _ _ _ s _ _ hc =>
          intro c hm
          simp only [codesOf, List.map_cons, List.flatMap_cons, List.mem_append] at hm
          rcases hm with hm | hm
          · cases hc with
            | code hl => cases hl with | mk _ hs => exact hseq hs c hm
            | _ => simp at hm
          · exact ih c hm
    intro f hf
    obtain ⟨i, hi⟩ := List.mem_iff_getElem?.1 hf
    have := (zipWith_mkFunc_get hi).2
    exact hcodes _ (List.mem_of_getElem? this)

/-! ### Data -/

/-- C27: in an accepted module with a data count, it is the number of data segments. -/
theorem c27_count {r r' : R} {m : Module} (h : decodeModule r = (.ok m, r')) :
    ∀ n, m.data_count = some n → m.datas.length = n.toNat := by
  have := c17_sound h
  generalize avail r = inp at this
  cases this with
  | mk hb hw => exact hw.dataCount

theorem stateOf_dataCount (pre : List (UInt32 × Section)) :
    (stateOf pre).module.data_count = dataCountOf (pre.map Prod.snd) := rfl

/-- C27: an input is rejected with `DataCountMismatch` exactly when a data section, at its place,
has another number of segments than the data count section announced. -/
theorem c27_mismatch {r : R} {d : Nat} {n : UInt32} :
    (∃ r', decodeModule r = (.err (.DataCountMismatch d n), r')) ↔
    ∃ secs size content rest ds, AtSection (avail r) secs .Data size (content ++ rest) ∧
      MayFollow secs .Data ∧ BContents content (.data ds) ∧ content.length ≤ size.toNat ∧
      d = ds.length ∧ dataCountOf secs = some n ∧ d ≠ n.toNat := by
  constructor
  · rintro ⟨r', h⟩
    cases module_err h with
    | @sect _ secs bs k' size b1 r1 hb hacc h1 a he =>
      generalize hx : DecodeModuleError.DataCountMismatch d n = e at he
      cases he with
      | @body _ t ht ho hd =>
        subst hx
        have := body_err hd
        generalize hx : DecodeModuleError.DataCountMismatch d n = e at this
        cases this with
        | inner hi => subst hx; simp [DecodeModuleError.inner] at hi
        | @data ds content n' hk ha hc hn hl =>
          simp only at hk
          subst hk
          simp only [DecodeModuleError.DataCountMismatch.injEq] at hx
          refine ⟨secs.map Prod.snd, size, content, avail t.inner, ds, ?_, ?_, hc, ?_, hx.1, ?_, ?_⟩
          · have := AtSection.mk (rest := avail r1) (k := .Data) hb hacc h1
            rw [adv_avail ha.2] at this
            rw [adv_avail a, adv_avail ha.2]
            simpa using this
          · exact mayFollow_iff.2 (ho (.data ds) rfl)
          · have := ha.1; simp only at this; omega
          · rw [hx.2]; exact hn
          · rw [hx.1, hx.2]; exact hl
        | code => cases hx
      | duplicate => cases hx
      | order => cases hx
      | size => cases hx
      | customSize => cases hx
    | final _ _ _ _ he => cases he
  · rintro ⟨secs, size, content, rest, ds, hat, hm, hc, hlen, rfl, hn, hne⟩
    obtain ⟨secs', r1, rfl, hacc, hav, _, he⟩ := at_section hat
    obtain ⟨r', h'⟩ := section_body_fails (size := size) hacc hm hlen
      (data_fails (k := stateOf secs') hc hn hne) hav
    exact ⟨r', he _ _ h'⟩

/-- C27: an input is rejected with `DataCountDatasLenMismatch` exactly when it ends, after sections
that may open a module and have no other defect, with a non-zero data count and no data section. -/
theorem c27_missing {r : R} {d : Nat} {n : UInt32} :
    (∃ r', decodeModule r = (.err (.DataCountDatasLenMismatch d n), r')) ↔
    ∃ secs, AtEnd (avail r) secs ∧ (fin r).toErr = .unexpectedEof ∧ dataCountOf secs = some n ∧
      (∀ s ∈ secs, s.kind ≠ .Data) ∧ d = 0 ∧ n ≠ 0 ∧
      (typeIdxsOf secs).length = (codesOf secs).length := by
  constructor
  · rintro ⟨r', h⟩
    cases module_err h with
    | @sect _ secs bs k' size b1 r1 hb hacc h1 a he =>
      generalize hx : DecodeModuleError.DataCountDatasLenMismatch d n = e at he
      cases he with
      | @body _ t ht ho hd =>
        subst hx
        have := body_err hd
        generalize hx : DecodeModuleError.DataCountDatasLenMismatch d n = e at this
        cases this with
        | inner hi => subst hx; simp [DecodeModuleError.inner] at hi
        | code => cases hx
        | data => cases hx
      | duplicate => cases hx
      | order => cases hx
      | size => cases hx
      | customSize => cases hx
    | @final _ secs bs ha hb hacc hf he =>
      generalize hx : DecodeModuleError.DataCountDatasLenMismatch d n = e at he
      cases he with
      | dataCount hn hne hl =>
        simp only [DecodeModuleError.DataCountDatasLenMismatch.injEq] at hx
        obtain ⟨rfl, rfl⟩ := hx
        have hno : ∀ s ∈ secs.map Prod.snd, s.kind ≠ .Data := by
          intro s hs hk
          exact hne (hacc.dataCount ⟨s, hs, hk⟩ n hn).symm
        have hd0 := datasOf_nil hno
        refine ⟨secs.map Prod.snd, by rw [ha]; exact AtEnd.mk hb hacc, hf, hn, hno, by rw [hd0]; rfl,
          ?_, hl⟩
        rintro rfl
        rw [hd0] at hne
        exact hne rfl
      | code => cases hx
      | dataIdx => cases hx
  · rintro ⟨secs, hat, hf, hn, hno, rfl, hne, hl⟩
    generalize ha : avail r = inp at hat
    cases hat with
    | @mk bs secs hb hacc =>
      obtain ⟨r1, h1⟩ := module_at_end hb hacc ha hf
      have hd0 := datasOf_nil hno
      have := EndErr.dataCount hn (by
        rw [hd0]
        intro h0
        exact hne (UInt32.toNat_inj.1 h0)) hl
      rw [end_final this, hd0] at h1
      exact ⟨_, h1⟩

/-- C28: if a function body of an accepted module contains, at any depth, an instruction with a data
index, the module has a data count section. -/
theorem c28_required {r r' : R} {m : Module} (h : decodeModule r = (.ok m, r'))
    (hu : ∃ f ∈ m.funcs, ∃ i ∈ f.body, UsesData i) : m.data_count ≠ none := by
  have := c17_sound h
  generalize avail r = inp at this
  cases this with
  | mk hb hw =>
    obtain ⟨f, hf, i, hi, hui⟩ := hu
    obtain ⟨j, hj⟩ := List.mem_iff_getElem?.1 hf
    have := (zipWith_mkFunc_get hj).2
    exact hw.dataIdx ⟨_, List.mem_of_getElem? this, i, hi, hui⟩

/-- C28: an input is rejected with `DataIndexWithoutDataCount` exactly when it ends after sections
that may open a module and have no other defect, some function body uses a data index, and there is
no data count section.  (Only bodies count: the initialisers of globals, tables, elements and the
offsets of data segments are not mentioned.) -/
theorem c28_reject {r : R} :
    (∃ r', decodeModule r = (.err .DataIndexWithoutDataCount, r')) ↔
    ∃ secs, AtEnd (avail r) secs ∧ (fin r).toErr = .unexpectedEof ∧ dataCountOf secs = none ∧
      (∃ c ∈ codesOf secs, ∃ i ∈ c.body, UsesData i) ∧
      (typeIdxsOf secs).length = (codesOf secs).length := by
  constructor
  · rintro ⟨r', h⟩
    cases module_err h with
    | @sect _ secs bs k' size b1 r1 hb hacc h1 a he =>
      generalize hx : DecodeModuleError.DataIndexWithoutDataCount = e at he
      cases he with
      | @body _ t ht ho hd =>
        subst hx
        have := body_err hd
        generalize hx : DecodeModuleError.DataIndexWithoutDataCount = e at this
        cases this with
        | inner hi => subst hx; simp [DecodeModuleError.inner] at hi
        | code => cases hx
        | data => cases hx
      | duplicate => cases hx
      | order => cases hx
      | size => cases hx
      | customSize => cases hx
    | @final _ secs bs ha hb hacc hf he =>
      generalize hx : DecodeModuleError.DataIndexWithoutDataCount = e at he
      cases he with
      | dataIdx hn hu hl =>
        exact ⟨secs.map Prod.snd, by rw [ha]; exact AtEnd.mk hb hacc, hf, hn, hu, hl⟩
      | code => cases hx
      | dataCount => cases hx
  · rintro ⟨secs, hat, hf, hn, hu, hl⟩
    generalize ha : avail r = inp at hat
    cases hat with
    | @mk bs secs hb hacc =>
      obtain ⟨r1, h1⟩ := module_at_end hb hacc ha hf
      rw [end_final (EndErr.dataIdx hn hu hl)] at h1
      exact ⟨_, h1⟩

/-! ### Preamble -/

/-- C39: an accepted input starts with the preamble. -/
theorem c39_accepted {r r' : R} {m : Module} (h : decodeModule r = (.ok m, r')) :
    (avail r).take 8 = [0x00, 0x61, 0x73, 0x6D, 0x01, 0x00, 0x00, 0x00] := by
  have := c17_sound h
  generalize avail r = inp at this
  cases this with
  | mk hb hw => rfl

/-- C39: with fewer than eight bytes, the error is the reader's. -/
theorem c39_short {r : R} (h : (avail r).length < 8) :
    ∃ r', decodeModule r = (.err (.ParsePreamble (.Io (fin r).toErr)), r') := by
  obtain ⟨r1, h1⟩ := readExact_err h
  exact ⟨r1, by simp only [decodeModule, parsePreamble, Bind.bind, Dec.bind, Dec.mapErr, h1]⟩

/-- C39: other first eight bytes are reported verbatim. -/
theorem c39_unexpected {r : R} {b rest : Bytes} (h : avail r = b ++ rest) (hl : b.length = 8)
    (hb : b ≠ preamble) : ∃ r', decodeModule r = (.err (.ParsePreamble (.Unexpected b)), r') := by
  obtain ⟨r1, h1, _⟩ := Runs.readExact (R := R) hl r rest h
  refine ⟨r1, ?_⟩
  have hb' : b ≠ EXPECTED_PREAMBLE := hb
  simp only [decodeModule, parsePreamble, Bind.bind, Dec.bind, Dec.mapErr, h1]
  rw [if_pos hb']
  rfl

/-- C39: `ParsePreamble` errors occur in these two situations only. -/
theorem c39_iff {r : R} {e : ParsePreambleError} :
    (∃ r', decodeModule r = (.err (.ParsePreamble e), r')) ↔
    ((avail r).length < 8 ∧ e = .Io (fin r).toErr) ∨
    (8 ≤ (avail r).length ∧ (avail r).take 8 ≠ preamble ∧ e = .Unexpected ((avail r).take 8)) := by
  constructor
  · rintro ⟨r', h⟩
    by_cases hl : (avail r).length < 8
    · obtain ⟨r2, h2⟩ := c39_short hl
      rw [h] at h2
      cases h2
      exact .inl ⟨hl, rfl⟩
    · by_cases hp : (avail r).take 8 = preamble
      · obtain ⟨r1, e1, a1⟩ := preamble_runs (R := R) r ((avail r).drop 8)
          (by rw [← hp, List.take_append_drop])
        simp only [decodeModule, Bind.bind, Dec.bind, Dec.mapErr, e1] at h
        rw [← stateOf_nil] at h
        rcases hl : (sectionLoop (Read.weight r + 1) (stateOf []) r1 : _ × _) with ⟨res, r2⟩
        rw [hl] at h
        cases res with
        | ok st =>
          obtain ⟨secs, h1, h2, rfl, h4⟩ := loop_sound _ _ _ _ _ hl Acceptable.nil
          have := final_err (by simpa using h2) h
          cases this
        | err x =>
          simp only [Prod.mk.injEq, Res.err.injEq] at h
          obtain ⟨rfl, rfl⟩ := h
          obtain ⟨secs, bs, r3, a3, hs, hacc, hh | hh⟩ := loop_err _ _ _ _ _ hl Acceptable.nil
          · obtain ⟨x, hx, _⟩ := hh
            cases hx
          · obtain ⟨k, size, b1, r4, a4, hb1, hd⟩ := hh
            have := section_err (by simpa using hacc) hd
            generalize hx : DecodeModuleError.ParsePreamble e = x at this
            cases this with
            | @body _ t ht ho hd =>
              subst hx
              have := body_err hd
              generalize hx : DecodeModuleError.ParsePreamble e = x at this
              cases this with
              | inner hi => subst hx; simp [DecodeModuleError.inner] at hi
              | code => cases hx
              | data => cases hx
            | duplicate => cases hx
            | order => cases hx
            | size => cases hx
            | customSize => cases hx
        | panic => simp at h
        | fuel => simp at h
      · obtain ⟨r2, h2⟩ := c39_unexpected (r := r) (b := (avail r).take 8) (rest := (avail r).drop 8)
          (by rw [List.take_append_drop]) (by rw [List.length_take]; omega) hp
        rw [h] at h2
        cases h2
        exact .inr ⟨by omega, hp, rfl⟩
  · rintro (⟨hl, rfl⟩ | ⟨hl, hp, rfl⟩)
    · exact c39_short hl
    · exact c39_unexpected (rest := (avail r).drop 8) (by rw [List.take_append_drop])
        (by rw [List.length_take]; omega) hp

/-! ### Section sizes -/

/-- C40: an input is rejected with `SectionSizeMismatch` exactly when a section whose contents are
complete and acceptable at that place is shorter than its declared size (or, for a custom section,
the input ends before the declared size), and the numbers are the declared and the actual size. -/
theorem c40_size {r : R} {k : SectionKind} {declared : UInt32} {got : UInt64} :
    (∃ r', decodeModule r = (.err (.SectionSizeMismatch k declared got), r')) ↔
    got.toNat < declared.toNat ∧
    ((∃ secs content rest s, AtSection (avail r) secs k declared (content ++ rest) ∧
        k ≠ .Custom ∧ s.kind = k ∧ BContents content s ∧ Acceptable (secs ++ [s]) ∧
        content.length = got.toNat) ∨
     (∃ secs rest c, AtSection (avail r) secs k declared rest ∧ k = .Custom ∧ fin r = .eof ∧
        BCustom rest c ∧ rest.length = got.toNat)) := by
  constructor
  · rintro ⟨r', h⟩
    cases module_err h with
    | @sect _ secs bs k' size b1 r1 hb hacc h1 a he =>
      have hat : AtSection (avail r) (secs.map Prod.snd) k' size (avail r1) := by
        have := AtSection.mk (rest := avail r1) (k := k') hb hacc h1
        rw [adv_avail a]
        simpa using this
      generalize hx : DecodeModuleError.SectionSizeMismatch k declared got = e at he
      cases he with
      | @body _ t ht ho hd =>
        subst hx
        have := body_err hd
        generalize hx : DecodeModuleError.SectionSizeMismatch k declared got = e at this
        cases this with
        | inner hi => subst hx; simp [DecodeModuleError.inner] at hi
        | code => cases hx
        | data => cases hx
      | duplicate => cases hx
      | order => cases hx
      | size ho hok hk hs ha hc hlt hg =>
        cases hx
        rw [adv_avail ha] at hat
        exact ⟨by rw [hg]; exact hlt, .inl ⟨_, _, _, _, hat, hk, hs, hc,
          Acceptable.snoc hacc ho hok, hg.symm⟩⟩
      | customSize hk hc hf hlt hg =>
        simp only at hk
        subst hk
        cases hx
        rw [adv_fin a] at hf
        exact ⟨by rw [hg]; exact hlt, .inr ⟨_, _, _, hat, rfl, hf, hc, hg.symm⟩⟩
    | final _ _ _ _ he => cases he
  · rintro ⟨hlt, ⟨secs, content, rest, s, hat, hk, rfl, hc, hacc', hg⟩ |
      ⟨secs, rest, c, hat, rfl, hf, hc, hg⟩⟩
    · obtain ⟨secs', r1, rfl, hacc, hav, _, he⟩ := at_section hat
      rcases validate_kind (R := R) s.kind (sorted_iff.2 hacc.order) with ⟨_, hv⟩ | ⟨hn, _⟩
      · have hb := body_runs (R := Take R) hk hc (Wadec.Acceptable.secOk hacc')
        obtain ⟨r2, h2, a2⟩ := Runs.withTake (n := declared.toNat) (by omega) hb r1 rest hav
        refine ⟨r2, he _ _ ?_⟩
        rw [section_eq ⟨s.kind, declared⟩ _ hv]
        simp only [Bind.bind, Dec.bind, h2]
        rw [if_pos (by omega)]
        have : UInt64.ofNat (declared.toNat - (declared.toNat - content.length)) = got := by
          apply UInt64.toNat_inj.1
          rw [got_toNat]; omega
        rw [this]
        rfl
      · exact absurd (sorted_iff.2 hacc'.order) (hn s rfl)
    · obtain ⟨secs', r1, rfl, hacc, hav, hfin, he⟩ := at_section hat
      rcases validate_kind (R := R) .Custom (sorted_iff.2 hacc.order) with ⟨_, hv⟩ | ⟨_, _, _, _, hk, _⟩
      · cases hc with
        | @mk b nm contents hn =>
          have hav0 : avail ({ limit := declared.toNat, inner := r1 } : Take R) = b ++ contents := by
            show (avail r1).take declared.toNat = _
            rw [hav, List.take_of_length_le (by omega)]
          obtain ⟨t1, e1, a1⟩ := name_runs (R := Take R) hn _ contents hav0
          have hf0 : fin ({ limit := declared.toNat, inner := r1 } : Take R) = .eof := by
            simp only [fin]
            rw [if_neg (by rw [hav]; omega), hfin, hf]
          obtain ⟨t2, e2, l2, _⟩ := (custom_spec e1 a1).1 hf0
          have hav1 : avail t1 = contents := by
            have := adv_avail a1
            rw [hav0] at this
            exact (List.append_cancel_left this).symm
          have hl1 := a1.1
          simp only at hl1
          rw [hav1] at l2
          rw [List.length_append] at hg
          refine ⟨t2.inner, he _ _ ?_⟩
          rw [section_eq ⟨.Custom, declared⟩ _ hv]
          have := customStep_ok (h := ⟨.Custom, declared⟩) (st := stateOf secs') e2
          rw [if_pos (by omega)] at this
          refine Eq.trans this ?_
          have : UInt64.ofNat (declared.toNat - t2.limit) = got := by
            apply UInt64.toNat_inj.1
            rw [got_toNat]; omega
          rw [this]
      · exact absurd rfl hk

end

end Wadec
