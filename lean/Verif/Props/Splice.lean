import Verif.Proof.Splice
import Verif.Props.Sample

/-! C74: local edits have local effects. -/

namespace Wadec

open Spec LawfulRead

/-- Replacing consecutive entries of a section of an accepted module has the expected effect: the replaced entries are
the ones the module has at that place; the edited input is accepted exactly if the side conditions hold, and the module
then differs in those entries, and in the size in the header of that section, only. -/
def LocalEdits {α : Type} (F : EntryKind α) : Prop :=
  ∀ {R : Type} [LawfulRead R] {r r' s : R} {m : Module} {p q : Site α},
    decodeModule r = (.ok m, r') → avail r = p.bytes F → p.Valid F → q.Valid F → p.Edits q →
    avail s = q.bytes F → fin s = .eof →
    ∃ post, F.get m = p.pre ++ (p.mid ++ post) ∧ m.section_headers[p.secs.length]? = some ⟨F.kind, p.size⟩ ∧
      (F.ok m p.mid q.mid → ∃ s', decodeModule s =
        (.ok { F.put m (p.pre ++ (q.mid ++ post)) with
          section_headers := m.section_headers.set p.secs.length ⟨F.kind, q.size⟩ }, s')) ∧
      (¬ F.ok m p.mid q.mid → ∀ m' s', decodeModule s ≠ (.ok m', s'))

theorem localEdits {α : Type} {F : EntryKind α} {wrap : List α → Section} (hF : Placed F wrap) : LocalEdits F := by
  intro R _ r r' s m p q h hr hp hq he hs hf
  have hm := c17_sound h
  rw [hr] at hm
  obtain ⟨post, h1, h2, h3, h4⟩ := splice hF hp hq he hm
  refine ⟨post, h1, h2, fun hok => ?_, fun hok m' s' hd => hok (h4 m' ?_)⟩
  · exact c18_complete (by rw [hs]; exact h3 hok) hf
  · have := c17_sound hd
    rwa [hs] at this

/-- C74: entries of sections that are subject to no side condition. -/
theorem c74_entries : LocalEdits entTypes ∧ LocalEdits entImports ∧ LocalEdits entTables ∧ LocalEdits entMems ∧
    LocalEdits entTags ∧ LocalEdits entGlobals ∧ LocalEdits entExports ∧ LocalEdits entElems :=
  ⟨localEdits placed_types, localEdits placed_imports, localEdits placed_tables, localEdits placed_mems,
    localEdits placed_tags, localEdits placed_globals, localEdits placed_exports, localEdits placed_elems⟩

/-- C74: function types and code, whose numbers must agree. -/
theorem c74_funcs : LocalEdits entFuncTypes ∧ LocalEdits entCodes :=
  ⟨localEdits placed_typeIdxs, localEdits placed_codes⟩

/-- C74: data segments, whose number a data count section fixes. -/
theorem c74_datas : LocalEdits entDatas := localEdits placed_datas

/-- C74, spelt out for overwriting one function body in place by another of the same length: nothing else changes. -/
theorem c74_patch_code {R : Type} [LawfulRead R] {r r' s : R} {m : Module} {b1 sz n es1 e e' rest : Bytes}
    {secs : List (UInt32 × Section)} {size count : UInt32} {pre : List CodeEntry} {x x' : CodeEntry}
    (h : decodeModule r = (.ok m, r'))
    (hr : avail r = preamble ++ (b1 ++ (0x0A :: (sz ++ (n ++ (es1 ++ (e ++ rest)))))))
    (hb1 : BSeq BSection b1 secs) (hsz : BU32 sz size) (hn : BU32 n count) (hes : BSeq BCode es1 pre)
    (hi : pre.length < count.toNat) (he : BCode e x)
    (he' : BCode e' x') (hlen : e'.length = e.length) (hd : (∃ i ∈ x'.body, UsesData i) → m.data_count ≠ none)
    (hs : avail s = preamble ++ (b1 ++ (0x0A :: (sz ++ (n ++ (es1 ++ (e' ++ rest))))))) (hf : fin s = .eof) :
    ∃ f s', m.funcs[pre.length]? = some f ∧ f.locals = x.locals ∧ f.body = x.body ∧
      decodeModule s = (.ok { m with funcs := m.funcs.set pre.length { f with locals := x'.locals, body := x'.body } }, s') := by
  have single : ∀ {b : Bytes} {c : CodeEntry}, BCode b c → BSeq BCode b [c] := by
    intro b c hc
    have := BSeq.cons (bs := []) hc .nil
    rwa [List.append_nil] at this
  obtain ⟨post, h1, h2, h3, -⟩ := c74_funcs.2 (p := ⟨b1, secs, sz, size, n, count, es1, pre, e, [x], rest⟩)
    (q := ⟨b1, secs, sz, size, n, count, es1, pre, e', [x'], rest⟩) h hr
    ⟨hb1, hsz, hn, hes, single he, hi⟩ ⟨hb1, hsz, hn, hes, single he', hi⟩
    ⟨rfl, rfl, rfl, rfl, rfl, rfl, by simp [hlen]⟩ hs hf
  obtain ⟨s', h3⟩ := h3 ⟨rfl, by simpa using hd⟩
  simp only [entCodes, List.singleton_append] at h1 h2 h3
  have hl : pre.length < m.funcs.length := by
    have := congrArg List.length h1
    simp only [List.length_map, List.length_append, List.length_cons] at this; omega
  have hx : (m.funcs.map fun f => (⟨f.locals, f.body⟩ : CodeEntry))[pre.length]? = some x := by rw [h1]; simp
  rw [List.getElem?_map, List.getElem?_eq_getElem hl] at hx
  simp only [Option.map_some, Option.some.injEq] at hx
  refine ⟨m.funcs[pre.length], s', List.getElem?_eq_getElem hl, by rw [← hx], by rw [← hx], ?_⟩
  rw [h3]
  have hh : m.section_headers.set secs.length ⟨.Code, size⟩ = m.section_headers := by
    refine List.ext_getElem? fun i => ?_
    rw [List.getElem?_set]
    split
    · rename_i hi; subst hi
      rw [h2]
      have : secs.length < m.section_headers.length := by
        rcases Nat.lt_or_ge secs.length m.section_headers.length with h | h
        · exact h
        · rw [List.getElem?_eq_none h] at h2; cases h2
      simp [this]
    · rfl
  rw [hh]
  have hz : List.zipWith (fun (f : Func) (c : CodeEntry) => { f with locals := c.locals, body := c.body }) m.funcs (pre ++ x' :: post) =
      m.funcs.set pre.length { m.funcs[pre.length] with locals := x'.locals, body := x'.body } := by
    have hq : pre ++ x' :: post = (m.funcs.map fun f => (⟨f.locals, f.body⟩ : CodeEntry)).set pre.length x' := by
      rw [h1]; simp
    rw [hq]
    refine List.ext_getElem (by simp) fun i hi1 hi2 => ?_
    simp only [List.getElem_zipWith, List.getElem_set, List.getElem_map]
    split
    · rename_i hi; subst hi; rfl
    · rfl
  rw [hz]

theorem swap_section {sec : Bytes} {x : UInt32 × Section} {b1 rest : Bytes} {secs : List (UInt32 × Section)} {m : Module}
    (hm : BModule (preamble ++ (b1 ++ (sec ++ rest))) m) (hb1 : BSeq BSection b1 secs) (hx : BSection sec x) :
    ∃ tl, BSeq BSection rest tl ∧ WellFormed ((secs ++ x :: tl).map Prod.snd) ∧ m = assemble (secs ++ x :: tl) := by
  generalize hb : preamble ++ (b1 ++ (sec ++ rest)) = b at hm
  cases hm with
  | @mk bs ss hs hw =>
    have hb := List.append_cancel_left hb
    subst hb
    have hpre := seq_append hb1 (seq1 hx)
    rw [← List.append_assoc] at hs
    obtain ⟨tl, rfl, ht⟩ := sections_prefix hpre hs
    rw [List.append_assoc] at hw ⊢
    exact ⟨tl, ht, hw, rfl⟩

/-- C74: another start function. -/
theorem c74_start {R : Type} [LawfulRead R] {r r' s : R} {m : Module} {b1 sec sec' rest : Bytes}
    {secs : List (UInt32 × Section)} {size size' : UInt32} {x x' : FuncIdx}
    (h : decodeModule r = (.ok m, r')) (hr : avail r = preamble ++ (b1 ++ (sec ++ rest))) (hb1 : BSeq BSection b1 secs)
    (hx : BSection sec (size, .start x)) (hx' : BSection sec' (size', .start x'))
    (hs : avail s = preamble ++ (b1 ++ (sec' ++ rest))) (hf : fin s = .eof) :
    m.start = some x ∧ ∃ s', decodeModule s =
      (.ok { m with start := some x', section_headers := m.section_headers.set secs.length ⟨.Start, size'⟩ }, s') := by
  have hm := c17_sound h
  rw [hr] at hm
  obtain ⟨tl, ht, hw, rfl⟩ := swap_section hm hb1 hx
  have hstart : ∀ y, WellFormed (secs.map Prod.snd ++ .start y :: tl.map Prod.snd) →
      startOf (secs.map Prod.snd ++ .start y :: tl.map Prod.snd) = some y := by
    intro y hw
    obtain ⟨ha, -⟩ := alone hw.order nofun
    have hn : ∀ {g : Section → Option FuncIdx}, (∀ z, z.kind ≠ .Start → g z = none) → (secs.map Prod.snd).filterMap g = [] := by
      intro g hg
      exact List.filterMap_eq_nil_iff.2 fun z hz => hg z (ha z hz)
    unfold startOf
    rw [List.filterMap_append, hn (fun z hz => by cases z <;> first | rfl | exact absurd rfl hz)]
    rfl
  simp only [List.map_append, List.map_cons] at hw
  have hw' : WellFormed (secs.map Prod.snd ++ .start x' :: tl.map Prod.snd) := wellFormed_same hw rfl rfl rfl rfl rfl
  refine ⟨by simp only [assemble, List.map_append, List.map_cons]; exact hstart x hw, ?_⟩
  refine c18_complete (m := _) ?_ hf
  rw [hs]
  have : BModule (preamble ++ (b1 ++ (sec' ++ rest))) (assemble (secs ++ (size', .start x') :: tl)) :=
    .mk (seq_append hb1 (.cons hx' ht)) (by simp only [List.map_append, List.map_cons]; exact hw')
  have e : assemble (secs ++ (size', .start x') :: tl) =
      { assemble (secs ++ (size, .start x) :: tl) with
        start := some x'
        section_headers := (assemble (secs ++ (size, .start x) :: tl)).section_headers.set secs.length ⟨.Start, size'⟩ } := by
    simp only [assemble, List.map_append, List.map_cons, Module.mk.injEq]
    refine ⟨?_, ?_, ?_, ?_, ?_, ?_, ?_, ?_, ?_, ?_, ?_, ?_, ?_, ?_, ?_, ?_⟩ <;> first | splices | exact hstart x' hw'
  rw [e] at this
  exact this

/-- C74: another custom section. -/
theorem c74_custom {R : Type} [LawfulRead R] {r r' s : R} {m : Module} {b1 sec sec' rest : Bytes}
    {secs : List (UInt32 × Section)} {size size' : UInt32} {c c' : CustomSection}
    (h : decodeModule r = (.ok m, r')) (hr : avail r = preamble ++ (b1 ++ (sec ++ rest))) (hb1 : BSeq BSection b1 secs)
    (hx : BSection sec (size, .custom c)) (hx' : BSection sec' (size', .custom c'))
    (hs : avail s = preamble ++ (b1 ++ (sec' ++ rest))) (hf : fin s = .eof) :
    ∃ after, m.custom_sections = customsOf (secs.map Prod.snd) ++ c :: after ∧ ∃ s', decodeModule s =
      (.ok { m with
        custom_sections := customsOf (secs.map Prod.snd) ++ c' :: after
        section_headers := m.section_headers.set secs.length ⟨.Custom, size'⟩ }, s') := by
  have hm := c17_sound h
  rw [hr] at hm
  obtain ⟨tl, ht, hw, rfl⟩ := swap_section hm hb1 hx
  have hc : ∀ y, customsOf (secs.map Prod.snd ++ .custom y :: tl.map Prod.snd) =
      customsOf (secs.map Prod.snd) ++ y :: customsOf (tl.map Prod.snd) := by
    intro y; simp only [customsOf, List.filterMap_append]; rfl
  simp only [List.map_append, List.map_cons] at hw
  have hw' : WellFormed (secs.map Prod.snd ++ .custom c' :: tl.map Prod.snd) := wellFormed_same hw rfl rfl rfl rfl rfl
  refine ⟨customsOf (tl.map Prod.snd), by simp only [assemble, List.map_append, List.map_cons]; exact hc c, ?_⟩
  refine c18_complete (m := _) ?_ hf
  rw [hs]
  have : BModule (preamble ++ (b1 ++ (sec' ++ rest))) (assemble (secs ++ (size', .custom c') :: tl)) :=
    .mk (seq_append hb1 (.cons hx' ht)) (by simp only [List.map_append, List.map_cons]; exact hw')
  have e : assemble (secs ++ (size', .custom c') :: tl) =
      { assemble (secs ++ (size, .custom c) :: tl) with
        custom_sections := customsOf (secs.map Prod.snd) ++ c' :: customsOf (tl.map Prod.snd)
        section_headers := (assemble (secs ++ (size, .custom c) :: tl)).section_headers.set secs.length ⟨.Custom, size'⟩ } := by
    simp only [assemble, List.map_append, List.map_cons, Module.mk.injEq]
    refine ⟨?_, ?_, ?_, ?_, ?_, ?_, ?_, ?_, ?_, ?_, ?_, ?_, ?_, ?_, ?_, ?_⟩ <;> first | splices | exact hc c'
  rw [e] at this
  exact this

/-! ### Instances -/

/-- The place of the only data segment of the sample module, a passive segment `FF`. -/
def siteA : Site Data :=
  ⟨secCustom ++ (secType ++ (secFunction ++ (secGlobal ++ (secCustom ++ (secDataCount ++ secCode))))), secsA.take 7,
    [0x04], 4, [0x01], 1, [], [], [0x01, 0x01, 0xFF], [dataA], secCustom⟩
/-- Another segment in its place: two bytes `AB CD`, so that the section grows by one byte. -/
def siteB : Site Data :=
  { siteA with sz := [0x05], size := 5, es := [0x01, 0x02, 0xAB, 0xCD], mid := [⟨[0xAB, 0xCD], .Passive⟩] }
/-- One segment more, which the data count section does not allow. -/
def siteC : Site Data :=
  { siteA with
    sz := [0x07], size := 7, n := [0x02], count := 2, es := [0x01, 0x01, 0xFF, 0x01, 0x01, 0xFF]
    mid := [dataA, dataA] }

theorem siteA_bytes : siteA.bytes entDatas = preamble ++ bytesA := by decide

theorem siteA_before : BSeq BSection siteA.before siteA.secs :=
  .cons bCustom (.cons bType (.cons bFunction (.cons bGlobal (.cons bCustom (.cons bDataCount (seq1 bCode))))))

theorem segA : BData [0x01, 0x01, 0xFF] dataA :=
  .passive (b0 := [0x01]) (b1 := [0x01, 0xFF]) ((c07_u32 1 _).2 ⟨1, by decide⟩) (single rfl)

theorem siteA_valid : siteA.Valid entDatas :=
  ⟨siteA_before, (c07_u32 4 _).2 ⟨1, by decide⟩, (c07_u32 1 _).2 ⟨1, by decide⟩, .nil, seq1 segA, by decide⟩

theorem siteB_valid : siteB.Valid entDatas := by
  have h2 : BByteVec [0x02, 0xAB, 0xCD] [0xAB, 0xCD] :=
    .mk (b := [0x02]) (bs := [0xAB, 0xCD]) (xs := [0xAB, 0xCD]) ((c07_u32 2 _).2 ⟨1, by decide⟩)
      (.cons (b := [0xAB]) rfl (seq1 (b := [0xCD]) rfl))
  exact ⟨siteA_before, (c07_u32 5 _).2 ⟨1, by decide⟩, (c07_u32 1 _).2 ⟨1, by decide⟩, .nil,
    seq1 (.passive (b0 := [0x01]) (b1 := [0x02, 0xAB, 0xCD]) ((c07_u32 1 _).2 ⟨1, by decide⟩) h2), by decide⟩

theorem siteC_valid : siteC.Valid entDatas :=
  ⟨siteA_before, (c07_u32 7 _).2 ⟨1, by decide⟩, (c07_u32 2 _).2 ⟨1, by decide⟩, .nil,
    .cons (b := [0x01, 0x01, 0xFF]) segA (seq1 segA), by decide⟩

theorem siteA_edits : siteA.Edits siteB ∧ siteA.Edits siteC :=
  ⟨⟨rfl, rfl, rfl, rfl, rfl, rfl, rfl⟩, ⟨rfl, rfl, rfl, rfl, rfl, rfl, rfl⟩⟩

/-- The first edit is accepted, the second is not. -/
example : (∃ s', decodeModule (Src.ofBytes (siteB.bytes entDatas)) =
      (.ok { assemble secsA with
        datas := [⟨[0xAB, 0xCD], .Passive⟩]
        section_headers := (assemble secsA).section_headers.set 7 ⟨.Data, 5⟩ }, s')) ∧
    (∀ m' s', decodeModule (Src.ofBytes (siteC.bytes entDatas)) ≠ (.ok m', s')) := by
  obtain ⟨r', hA⟩ := c18_complete (r := Src.ofBytes (preamble ++ bytesA)) (by rw [avail_ofBytes]; exact bModA) rfl
  have ha : avail (Src.ofBytes (preamble ++ bytesA)) = siteA.bytes entDatas := by rw [avail_ofBytes, siteA_bytes]
  obtain ⟨post, h1, -, h3, -⟩ := c74_datas hA ha siteA_valid siteB_valid siteA_edits.1 (avail_ofBytes _) rfl
  have hp : post = [] := by
    have := congrArg List.length h1
    exact List.eq_nil_of_length_eq_zero (by simpa [entDatas, siteA, assemble, secsA, datasOf] using this)
  subst hp
  refine ⟨h3 (fun _ => rfl), ?_⟩
  obtain ⟨-, -, -, -, h4⟩ := c74_datas hA ha siteA_valid siteC_valid siteA_edits.2 (avail_ofBytes _) rfl
  exact h4 fun h => absurd (h (by decide)) (by decide)

/-- The code entry of the sample module, with locals of type `t`. -/
theorem entryA {b : Bytes} {t : ValType} (ht : BValType [b.headD 0] t) (hb : b.length = 1) :
    BCode (0x0A :: 0x01 :: 0x02 :: (b ++ [0x02, 0x40, 0xFC, 0x09, 0x00, 0x0B, 0x0B])) ⟨[t, t], codeA.body⟩ := by
  obtain ⟨x, rfl⟩ : ∃ x, b = [x] := by
    cases b with
    | nil => cases hb
    | cons x xs => exact ⟨x, congrArg (x :: ·) (List.eq_nil_of_length_eq_zero (by simpa using hb))⟩
  exact .mk (b1 := [0x0A]) ((c07_u32 10 _).2 ⟨1, by decide⟩)
    (.mk (b1 := [0x01, 0x02, x]) (b2 := [0x02, 0x40, 0xFC, 0x09, 0x00, 0x0B, 0x0B]) (runs := [(2, t)])
      (single (.mk (b1 := [0x02]) (b2 := [x]) ((c07_u32 2 [0x02]).2 ⟨1, by decide⟩) ht)) bBody (by simp [localsOf]))

/-- The bytes of the sample module, with the byte `x` for the type of the locals, and the custom section `c` at the end. -/
def patched (x : UInt8) (c : Bytes) : Bytes :=
  preamble ++ ((secCustom ++ (secType ++ (secFunction ++ (secGlobal ++ (secCustom ++ secDataCount))))) ++
    (0x0A :: ([0x0C] ++ ([0x01] ++ ([] ++ ([0x0A, 0x01, 0x02, x, 0x02, 0x40, 0xFC, 0x09, 0x00, 0x0B, 0x0B] ++ (secData ++ c)))))))

/-- Overwriting `0x7F` by `0x7E` turns the locals of the function from `i32` into `i64`. -/
example : ∃ f s', (assemble secsA).funcs[0]? = some f ∧ f.locals = [.Num .Int32, .Num .Int32] ∧
    decodeModule (Src.ofBytes (patched 0x7E secCustom)) =
      (.ok { assemble secsA with funcs := (assemble secsA).funcs.set 0 { f with locals := [.Num .Int64, .Num .Int64], body := codeA.body } }, s') := by
  obtain ⟨r', hA⟩ := c18_complete (r := Src.ofBytes (preamble ++ bytesA)) (by rw [avail_ofBytes]; exact bModA) rfl
  have hs : BSeq BSection (secCustom ++ (secType ++ (secFunction ++ (secGlobal ++ (secCustom ++ secDataCount))))) (secsA.take 6) :=
    .cons bCustom (.cons bType (.cons bFunction (.cons bGlobal (.cons bCustom (seq1 bDataCount)))))
  have := c74_patch_code hA (by rw [avail_ofBytes]; exact (by decide : preamble ++ bytesA = patched 0x7F secCustom))
    hs ((c07_u32 12 _).2 ⟨1, by decide⟩) ((c07_u32 1 _).2 ⟨1, by decide⟩) .nil (by decide)
    (entryA (b := [0x7F]) .i32 rfl) (entryA (b := [0x7E]) .i64 rfl) rfl (fun _ h => by cases h)
    (avail_ofBytes (patched 0x7E secCustom)) rfl
  obtain ⟨f, s', h1, h2, -, h4⟩ := this
  exact ⟨f, s', h1, h2, h4⟩

/-- Exchanging the last custom section for an empty one named `a`. -/
example : ∃ s', decodeModule (Src.ofBytes (preamble ++ ((secCustom ++ (secType ++ (secFunction ++ (secGlobal ++ (secCustom ++
      (secDataCount ++ (secCode ++ secData))))))) ++ ([0x00, 0x02, 0x01, 0x61] ++ [])))) =
    (.ok { assemble secsA with
      custom_sections := [customA, customA, ⟨⟨[0x61]⟩, []⟩]
      section_headers := (assemble secsA).section_headers.set 8 ⟨.Custom, 2⟩ }, s') := by
  obtain ⟨r', hA⟩ := c18_complete (r := Src.ofBytes (preamble ++ bytesA)) (by rw [avail_ofBytes]; exact bModA) rfl
  have hs : BSeq BSection (secCustom ++ (secType ++ (secFunction ++ (secGlobal ++ (secCustom ++ (secDataCount ++ (secCode ++ secData)))))))
      (secsA.take 8) :=
    .cons bCustom (.cons bType (.cons bFunction (.cons bGlobal (.cons bCustom (.cons bDataCount (.cons bCode (seq1 bData)))))))
  have hc : BSection [0x00, 0x02, 0x01, 0x61] (2, .custom ⟨⟨[0x61]⟩, []⟩) :=
    .mk (b1 := [0x02]) (b2 := [0x01, 0x61]) (s := .custom ⟨⟨[0x61]⟩, []⟩) ((c07_u32 2 _).2 ⟨1, by decide⟩) rfl
      (.custom (.mk (b := [0x01, 0x61]) (contents := []) nameA))
  obtain ⟨after, h1, s', h2⟩ := c74_custom (rest := []) hA (by rw [avail_ofBytes]; rfl) hs bCustom hc (avail_ofBytes _) rfl
  have hp : after = [] := by
    have := congrArg List.length h1
    exact List.eq_nil_of_length_eq_zero (by simpa [assemble, secsA, customsOf] using this)
  subst hp
  exact ⟨s', h2⟩

/-- A module that consists of a start section only, and another start function. -/
example : ∃ s', decodeModule (Src.ofBytes (preamble ++ ([] ++ ([0x08, 0x01, 0x05] ++ [])))) =
    (.ok { assemble [(1, .start ⟨0⟩)] with start := some ⟨5⟩, section_headers := [⟨.Start, 1⟩] }, s') := by
  have h : ∀ n : UInt32, n.toNat < 128 → BSection [0x08, 0x01, UInt8.ofNat n.toNat] (1, .start ⟨n⟩) := by
    intro n hn
    refine .mk (b1 := [0x01]) (b2 := [UInt8.ofNat n.toNat]) (s := .start ⟨n⟩) ((c07_u32 1 _).2 ⟨1, by decide⟩) rfl (.start ?_)
    show BU 32 _ _
    have h1 := BU.last (N := 32) (n := UInt8.ofNat n.toNat) (by simp; omega)
      (by have := n.toNat_lt; simp; omega)
    simpa [Nat.mod_eq_of_lt (show n.toNat < 256 by omega)] using h1
  have hm : BModule (preamble ++ ([] ++ ([0x08, 0x01, 0x00] ++ []))) (assemble [(1, .start ⟨0⟩)]) :=
    .mk (seq1 (h 0 (by decide))) ⟨by decide, rfl, nofun, nofun⟩
  obtain ⟨r', hA⟩ := c18_complete (r := Src.ofBytes _) (by rw [avail_ofBytes]; exact hm) rfl
  exact (c74_start hA (avail_ofBytes _) .nil (h 0 (by decide)) (h 5 (by decide)) (avail_ofBytes _) rfl).2

end Wadec
