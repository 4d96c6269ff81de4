import Verif.Spec.Headline
import Verif.Props.Lines
import Verif.Props.Place
import Verif.Proof.DebugBase

/-! C68: the report names the section and the entry that could not be decoded. -/

namespace Wadec

open LawfulRead Spec

theorem prefix_line {a b c d : List Char} (ha : '\n' ∉ a) (hb : '\n' ∉ b) :
    a ++ '\n' :: c <+: b ++ '\n' :: d ↔ a = b ∧ c <+: d := by
  induction a generalizing b with
  | nil => cases b with
    | nil => simp
    | cons y b =>
      simp only [List.mem_cons, not_or] at hb
      simp [hb.1]
  | cons x a ih => cases b with
    | nil =>
      simp only [List.mem_cons, not_or] at ha
      simp [Ne.symm ha.1]
    | cons y b =>
      simp only [List.mem_cons, not_or] at ha hb
      simp only [List.cons_append, List.cons_prefix_cons, ih ha.2 hb.2, List.cons.injEq, and_assoc]

theorem report_toList (v : Bool) (err : String) (causes : List String) (debug : String) :
    ∃ rest, (Spec.report v err causes debug).toList = "ERROR: ".toList ++ (err.toList ++ '\n' :: rest) ∧
      ∀ c cs, causes = c :: cs → ∃ rest', rest = '\n' :: ("Caused by:".toList ++ '\n' :: ("    0: ".toList ++ (c.toList ++ '\n' :: rest'))) := by
  have e1 : ("ERROR: " ++ err ++ "\n").toList = "ERROR: ".toList ++ (err.toList ++ ['\n']) := by simp
  have e2 : ("\nCaused by:\n").toList = '\n' :: ("Caused by:".toList ++ ['\n']) := by simp
  simp only [Spec.report, toList_join, List.flatMap_append, List.flatMap_cons, List.flatMap_nil, List.append_nil, e1,
    List.append_assoc, List.singleton_append]
  refine ⟨_, rfl, ?_⟩
  rintro c cs rfl
  simp only [reduceCtorEq, if_false, List.flatMap_cons, e2, List.zipIdx_cons, List.map_cons, List.append_assoc,
    List.cons_append]
  have e3 : ("    " ++ toString 0 ++ ": " ++ c ++ "\n").toList = "    0: ".toList ++ (c.toList ++ ['\n']) := by simp
  rw [e3]
  refine ⟨List.flatMap String.toList (List.map (fun x => "    " ++ toString x.snd ++ ": " ++ x.fst ++ "\n")
    (cs.zipIdx (0 + 1))) ++ List.flatMap String.toList (if v = true then ["\nDEBUG OUTPUT:\n" ++ debug ++ "\n"] else []), ?_⟩
  simp

theorem head_of_inner (io : IoError → List String) (e : DecodeModuleError) {k : SectionKind} (h : e.inner = some k) :
    ∃ m cs, ErrText.chain io e = m :: cs ∧ m ∈ headline k := by
  cases e <;> simp only [DecodeModuleError.inner, Option.some.injEq, reduceCtorEq] at h <;> subst h <;>
    rename_i x <;> cases x <;> exact ⟨_, _, rfl, by simp [headline]⟩

theorem headline_f {k : SectionKind} {h : String} (hk : h ∈ headline k) : h.toList.head? = some 'f' ∧ '\n' ∉ h.toList := by
  cases k <;> simp only [headline, List.mem_cons, List.not_mem_nil, or_false] at hk <;>
    first
      | (subst hk; simp)
      | (rcases hk with rfl | rfl <;> simp)

/-- The first message of an error is one line, or it does not begin with the letter of the headlines. -/
theorem inner_of_head (io : IoError → List String) (e : DecodeModuleError) :
    ∃ m cs, ErrText.chain io e = m :: cs ∧
      (('\n' ∉ m.toList ∧ ∀ k, m ∈ headline k → e.inner = some k) ∨ ∃ c, m.toList.head? = some c ∧ c ≠ 'f') := by
  cases e with
  | CodeFuncEntriesLenMismatch => exact ⟨_, _, rfl, .inr ⟨_, by simp; rfl, by decide⟩⟩
  | DataCountMismatch => exact ⟨_, _, rfl, .inr ⟨_, by simp; rfl, by decide⟩⟩
  | SectionOutOfOrder => exact ⟨_, _, rfl, .inr ⟨_, by simp; rfl, by decide⟩⟩
  | DuplicateSection => exact ⟨_, _, rfl, .inr ⟨_, by simp; rfl, by decide⟩⟩
  | SectionSizeMismatch k _ _ => cases k <;> exact ⟨_, _, rfl, .inr ⟨_, by simp [SectionKind.debug]; rfl, by decide⟩⟩
  | DataCountDatasLenMismatch => exact ⟨_, _, rfl, .inr ⟨_, by simp; rfl, by decide⟩⟩
  | DecodeDataCount =>
    refine ⟨_, _, rfl, .inl ⟨by simp, fun k hk => ?_⟩⟩
    cases k <;> simp [headline] at hk
  | DataIndexWithoutDataCount => exact ⟨_, _, rfl, .inr ⟨_, by simp; rfl, by decide⟩⟩
  | ParsePreamble x =>
    cases x with
    | Io x =>
      refine ⟨_, _, rfl, .inl ⟨by simp, fun k hk => ?_⟩⟩
      cases k <;> simp [headline] at hk
    | Unexpected b => exact ⟨_, _, rfl, .inr ⟨_, by simp; rfl, by decide⟩⟩
  | DecodeSectionHeader x =>
    cases x with
    | InvalidSectionId => exact ⟨_, _, rfl, .inr ⟨_, by simp; rfl, by decide⟩⟩
    | _ =>
      refine ⟨_, _, rfl, .inl ⟨by simp, fun k hk => ?_⟩⟩
      cases k <;> simp [headline] at hk
  | _ x =>
    cases x <;> refine ⟨_, _, rfl, .inl ⟨by simp, fun k hk => ?_⟩⟩ <;>
      cases k <;> first | rfl | simp [headline] at hk

theorem list_second {E : Type} [ErrText E] (io : IoError → List String) (e : DecodeListError E) :
    ∃ c cs, ErrText.chain io e = c :: cs ∧ '\n' ∉ c.toList ∧
      ∀ i : Nat, c = "failed parsing vector element at position " ++ toString i ↔
        ∃ j : UInt32, e.entry = some j ∧ j.toNat = i := by
  cases e with
  | DecodeLength e =>
    refine ⟨_, _, rfl, by simp, fun i => ?_⟩
    simp only [DecodeListError.entry, reduceCtorEq, false_and, exists_false, iff_false]
    intro h
    have h' := congrArg (fun s => s.toList.take 10) h
    simp only [String.toList_append] at h'
    rw [List.take_append_of_le_length (by simp)] at h'
    simp at h'
  | ParseElement j e =>
    refine ⟨_, _, rfl, ?_, fun i => ?_⟩
    · have := NoBreak.nat j.toNat
      unfold NoBreak at this
      rw [String.toList_append, List.mem_append, not_or]
      exact ⟨by simp, this⟩
    · rw [← String.toList_inj, String.toList_append, String.toList_append, List.append_cancel_left_eq, String.toList_inj]
      simp only [DecodeListError.entry, Option.some.injEq, exists_eq_left']
      exact ⟨nat_text, fun h => by rw [h]⟩

theorem entry_of_second (io : IoError → List String) (e : DecodeModuleError) {k : SectionKind} (h : e.inner = some k)
    (hk : isListKind k = true) : ∃ m c cs, ErrText.chain io e = m :: c :: cs ∧ '\n' ∉ c.toList ∧
      ∀ i : Nat, c = "failed parsing vector element at position " ++ toString i ↔
        ∃ j : UInt32, e.entry = some (k, j) ∧ j.toNat = i := by
  cases e <;> simp only [DecodeModuleError.inner, Option.some.injEq, reduceCtorEq] at h <;> subst h <;>
    simp only [isListKind, Bool.false_eq_true] at hk <;>
    rename_i x <;> cases x <;> rename_i x <;> obtain ⟨c, cs, h1, h2, h3⟩ := list_second io x <;>
    refine ⟨_, c, cs, congrArg (_ :: ·) h1, h2, fun i => ?_⟩ <;> rw [h3] <;>
    simp [DecodeModuleError.entry]

section
variable {R : Type} [LawfulRead R]

theorem error_prefix (v : Bool) (err : String) (causes : List String) (debug h : String) (hn : '\n' ∉ h.toList) :
    Begins (Spec.report v err causes debug) ["ERROR: " ++ h] → '\n' ∉ err.toList → err = h := by
  intro hb hm
  obtain ⟨rest, h1, _⟩ := report_toList v err causes debug
  simp only [Begins, h1, List.flatMap_cons, List.flatMap_nil, List.append_nil, String.toList_append, List.append_assoc,
    List.prefix_append_right_inj] at hb
  exact (String.toList_inj.1 ((prefix_line hn hm).1 hb).1).symm

theorem head_prefix {a b c : List Char} (h : a <+: b ++ c) (ha : a.head? = some x) (hb : b.head? = some y) : x = y := by
  cases a with
  | nil => cases ha
  | cons x' a => cases b with
    | nil => cases hb
    | cons y' b =>
      simp only [List.head?_cons, Option.some.injEq] at ha hb
      simp only [List.cons_append, List.cons_prefix_cons] at h
      rw [← ha, ← hb, h.1]

theorem begins_entry (v : Bool) (m c : String) (cs : List String) (debug h : String) {i : Nat} (hn : '\n' ∉ c.toList)
    (hm : '\n' ∉ m.toList) (hh : '\n' ∉ h.toList) :
    Begins (Spec.report v m (c :: cs) debug)
      ["ERROR: " ++ h, "", "Caused by:", "    0: failed parsing vector element at position " ++ toString i] ↔
    m = h ∧ c = "failed parsing vector element at position " ++ toString i := by
  obtain ⟨rest, h1, h2⟩ := report_toList v m (c :: cs) debug
  obtain ⟨rest', rfl⟩ := h2 c cs rfl
  have e : "    0: failed parsing vector element at position ".toList =
      "    0: ".toList ++ "failed parsing vector element at position ".toList := by simp
  have e0 : "".toList = [] := by simp
  have hb : '\n' ∉ "Caused by:".toList := by simp
  have hi : '\n' ∉ ("failed parsing vector element at position " ++ toString i).toList := by
    rw [String.toList_append, List.mem_append, not_or]
    exact ⟨by simp, NoBreak.nat i⟩
  simp only [Begins, h1, List.flatMap_cons, List.flatMap_nil, List.append_nil, String.toList_append,
    List.append_assoc, List.prefix_append_right_inj, List.singleton_append, e, e0, List.nil_append]
  rw [prefix_line hh hm, List.cons_prefix_cons, prefix_line hb hb, List.prefix_append_right_inj, ← List.append_assoc,
    ← String.toList_append, prefix_line hi hn, String.toList_inj, String.toList_inj]
  exact ⟨fun h => ⟨h.1.symm, String.toList_inj.1 h.2.2.2.1.symm⟩,
    fun h => ⟨h.1.symm, rfl, rfl, String.toList_inj.2 h.2.symm, List.nil_prefix⟩⟩

theorem head_noBreak (io : IoError → List String) (e : DecodeModuleError) {k : SectionKind} (h : e.inner = some k)
    {m : String} {cs : List String} (hc : ErrText.chain io e = m :: cs) : '\n' ∉ m.toList := by
  obtain ⟨m', cs', h1, h2⟩ := head_of_inner io e h
  rw [hc] at h1
  cases h1
  exact (headline_f h2).2

/-- Whom the report blames. -/
theorem blames_iff (t : CliText) (v : Bool) (r : R) (k : SectionKind) :
    Blames (cliMain t v (.ok r)).stderr k ↔ ∃ e r', decodeModule r = (.err e, r') ∧ e.inner = some k := by
  rcases c29_total r with ⟨m, r', h⟩ | ⟨e, r', h⟩
  · have hm : cliMain t v (.ok r) = ⟨if v then t.debugModule m ++ "\n" else "", "", 0⟩ := by simp only [cliMain, h]
    rw [hm, h]
    simp [Blames, Begins]
  · obtain ⟨err, causes, hc, hh⟩ := inner_of_head t.io e
    have hm : cliMain t v (.ok r) = abort v (err :: causes) (t.debugErr e) := by simp only [cliMain, h, hc]
    rw [hm, abort_report, h]
    obtain ⟨rest, h1, _⟩ := report_toList v err causes (t.debugErr e)
    constructor
    · rintro ⟨l, hl, hb⟩
      obtain ⟨hf, hn⟩ := headline_f hl
      refine ⟨e, r', rfl, ?_⟩
      rcases hh with ⟨hm, hk⟩ | ⟨c, hm, hcf⟩
      · exact hk _ (error_prefix _ _ _ _ _ hn hb hm ▸ hl)
      · simp only [Begins, h1, List.flatMap_cons, List.flatMap_nil, List.append_nil, String.toList_append,
          List.append_assoc, List.prefix_append_right_inj] at hb
        exact absurd (head_prefix hb (by simp [hf]) hm).symm hcf
    · rintro ⟨e', r'', he, hk⟩
      cases he
      obtain ⟨m, cs, h2, h3⟩ := head_of_inner t.io e hk
      rw [hc] at h2
      cases h2
      refine ⟨err, h3, ?_⟩
      simp only [Begins, h1, List.flatMap_cons, List.flatMap_nil, List.append_nil, String.toList_append, List.append_assoc,
        List.prefix_append_right_inj]
      simp

/-- C68: the first line of the tool's report says that a section of the (non-custom) kind `k` could not be decoded
exactly when, after sections that may open a module, a section of kind `k` begins that may stand there, and no contents
of such a section start its bytes. -/
theorem c68_section (t : CliText) (v : Bool) {r : R} {k : SectionKind} (hk : k ≠ .Custom) :
    Blames (cliMain t v (.ok r)).stderr k ↔
    ∃ secs size rest, AtSection (avail r) secs k size rest ∧ MayFollow secs k ∧
      NoStart (fun b => ∃ s, s.kind = k ∧ BContents b s) (rest.take size.toNat) := by
  rw [blames_iff, c50_section hk]

/-- C68, custom sections. -/
theorem c68_custom (t : CliText) (v : Bool) {r : R} :
    Blames (cliMain t v (.ok r)).stderr .Custom ↔
    ∃ secs size rest, AtSection (avail r) secs .Custom size rest ∧
      (NoStart (fun b => ∃ nm, BName b nm) (rest.take size.toNat) ∨
       (rest.length < size.toNat ∧ ∃ x, fin r = .fail x)) := by
  rw [blames_iff, c50_custom]

/-- C68: and the fourth line says that its entry `i` could not be decoded exactly when the bytes of the section start with
a count greater than `i` and `i` complete entries, and no entry starts what follows. -/
theorem c68_entry (t : CliText) (v : Bool) {r : R} {k : SectionKind} (hk : isListKind k = true) {i : Nat} :
    BlamesEntry (cliMain t v (.ok r)).stderr k i ↔
    ∃ secs size rest b n bs tail, AtSection (avail r) secs k size rest ∧ MayFollow secs k ∧
      rest.take size.toNat = b ++ (bs ++ tail) ∧ BU32 b n ∧ i < n.toNat ∧ Entries k bs i ∧ NoStart (IsEntry k) tail := by
  have key : BlamesEntry (cliMain t v (.ok r)).stderr k i ↔
      ∃ j : UInt32, j.toNat = i ∧ ∃ e r', decodeModule r = (.err e, r') ∧ e.entry = some (k, j) := by
    have inner : ∀ {e : DecodeModuleError} {j}, e.entry = some (k, j) → e.inner = some k := by
      intro e j h
      unfold DecodeModuleError.entry at h
      split at h <;> simp_all [DecodeModuleError.inner]
    have split : ∀ {text : String} {h : String} {ls}, Begins text (h :: ls) → Begins text [h] := by
      intro text h ls hb
      refine List.IsPrefix.trans ?_ hb
      simp
    constructor
    · rintro ⟨l, hl, hb⟩
      obtain ⟨e, r', h, hi⟩ := (blames_iff t v r k).1 ⟨l, hl, split hb⟩
      obtain ⟨m, c, cs, hc, hn, hj⟩ := entry_of_second t.io e hi hk
      have hm : cliMain t v (.ok r) = abort v (m :: c :: cs) (t.debugErr e) := by simp only [cliMain, h, hc]
      rw [hm, abort_report] at hb
      have := (begins_entry v m c cs _ _ hn (head_noBreak t.io e hi hc) (headline_f hl).2).1 hb
      obtain ⟨j, h1, h2⟩ := (hj i).1 this.2
      exact ⟨j, h2, e, r', h, h1⟩
    · rintro ⟨j, rfl, e, r', h, he⟩
      have hi := inner he
      obtain ⟨m, c, cs, hc, hn, hj⟩ := entry_of_second t.io e hi hk
      have hm : cliMain t v (.ok r) = abort v (m :: c :: cs) (t.debugErr e) := by simp only [cliMain, h, hc]
      obtain ⟨m', cs', hc', hmk⟩ := head_of_inner t.io e hi
      rw [hc] at hc'
      cases hc'
      rw [hm, abort_report]
      exact ⟨m, hmk, (begins_entry v m c cs _ _ hn (headline_f hmk).2 (headline_f hmk).2).2 ⟨rfl, (hj _).2 ⟨j, he, rfl⟩⟩⟩
  rw [key]
  constructor
  · rintro ⟨j, rfl, h⟩
    obtain ⟨secs, size, rest, b, n, bs, tail, h1, h2, _, h3, h4, h5, h6, h7⟩ := c51_entry.1 h
    exact ⟨secs, size, rest, b, n, bs, tail, h1, h2, h3, h4, UInt32.lt_iff_toNat_lt.1 h5, h6, h7⟩
  · rintro ⟨secs, size, rest, b, n, bs, tail, h1, h2, h3, h4, h5, h6, h7⟩
    have hi : i < UInt32.size := Nat.lt_trans h5 n.toNat_lt
    have e : (UInt32.ofNat i).toNat = i := UInt32.toNat_ofNat_of_lt' hi
    refine ⟨UInt32.ofNat i, e, c51_entry.2 ⟨secs, size, rest, b, n, bs, tail, h1, h2, hk, h3, h4, ?_, ?_, h7⟩⟩
    · rw [UInt32.lt_iff_toNat_lt, e]; exact h5
    · rw [e]; exact h6

/-- C68: no text blames sections of two kinds. -/
theorem c68_one {text : String} {k k' : SectionKind} (h : Blames text k) (h' : Blames text k') : k = k' := by
  obtain ⟨l, hl, hb⟩ := h
  obtain ⟨l', hl', hb'⟩ := h'
  have e : l = l' := by
    simp only [Begins, List.flatMap_cons, List.flatMap_nil, List.append_nil] at hb hb'
    obtain ⟨q, hq⟩ := hb'
    rw [← hq] at hb
    simp only [String.toList_append, List.append_assoc, List.prefix_append_right_inj] at hb
    exact String.toList_inj.1 ((prefix_line (c := []) (headline_f hl).2 (headline_f hl').2).1 hb).1
  subst e
  cases k <;> simp only [headline, List.mem_cons, List.not_mem_nil, or_false] at hl <;>
    first
      | (subst hl; cases k' <;> first | rfl | simp [headline] at hl')
      | (rcases hl with rfl | rfl <;> (cases k' <;> first | rfl | simp [headline] at hl'))

end

/-- The report about `badImport` names the import section and its entry 1 (the second one). -/
example (t : CliText) (v : Bool) : Begins (cliMain t v (.ok (Src.ofBytes badImport))).stderr
    ["ERROR: failed decoding Import section", "", "Caused by:", "    0: failed parsing vector element at position 1"] := by
  have h := (c68_entry t v (r := Src.ofBytes badImport) (k := .Import) (i := 1) rfl).2
  obtain ⟨e, r', he, _, hi⟩ := badImport_err
  obtain ⟨secs, size, rest, b, n, bs, tail, h1, h2, _, h3, h4, h5, h6, h7⟩ :=
    (c51_entry (r := Src.ofBytes badImport) (k := .Import) (i := 1)).1 ⟨e, r', he, hi⟩
  obtain ⟨l, hl, hb⟩ := h ⟨secs, size, rest, b, n, bs, tail, h1, h2, h3, h4, UInt32.lt_iff_toNat_lt.1 h5, h6, h7⟩
  simp only [headline, List.mem_singleton] at hl
  subst hl
  exact hb

end Wadec
