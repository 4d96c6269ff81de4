import Verif.Proof.FaultSections
import Verif.Props.Counts
import Verif.Props.Place

/-! C55: the errors of section contents, section headers and modules. -/

namespace Wadec

open LawfulRead Spec

variable {R : Type} [LawfulRead R]

theorem codes_faults : Faults (decodeList parseCode : Dec R _ _) (FList FCode BCode) := by
  have h := list_faults (R := R) code_sound (fun _ _ => code_runs) code_faults
  intro r e
  rw [h r e]
  generalize avail r = bs
  constructor
  · intro h
    cases h with
    | length h => exact .length h
    | element h1 h2 h3 h4 h5 =>
      exact .element h1 (seq_map Code.toEntry (fun _ _ h => h.toBCode) h2) (by simpa using h3) (by simpa using h4) h5
  · intro h
    cases h with
    | length h => exact .length h
    | element h1 h2 h3 h4 h5 =>
      obtain ⟨l, h6, rfl⟩ := seq_unmap (A := BCodeD) Code.toEntry (fun _ _ h => BCode.toBCodeD h) h2
      exact .element h1 h6 (by simpa using h3) (by simpa using h4) h5

theorem recTypes_faults : Faults (decodeList RecType.decode : Dec R _ _) (FList FRecType BRecType) :=
  list_faults RecType.sound (fun _ _ => RecType.runs) RecType.faults
theorem imports_faults : Faults (decodeList parseImport : Dec R _ _) (FList FImport BImport) :=
  list_faults import_sound (fun _ _ => import_runs) import_faults
theorem tables_faults : Faults (decodeList decodeTable : Dec R _ _) (FList FTable BTable) :=
  list_faults table_sound (fun _ _ => table_runs) table_faults
theorem mems_faults : Faults (decodeList parseMemType : Dec R _ _) (FList FMemType BMemType) :=
  list_faults memType_sound (fun _ _ => memType_runs) memType_faults
theorem tags_faults : Faults (decodeList TagType.decode : Dec R _ _) (FList FTagType BTagType) :=
  list_faults TagType.sound (fun _ _ => TagType.runs) TagType.faults
theorem globals_faults : Faults (decodeList parseGlobal : Dec R _ _) (FList FGlobal BGlobal) :=
  list_faults global_sound (fun _ _ => global_runs) global_faults
theorem exports_faults : Faults (decodeList parseExport : Dec R _ _) (FList FExport BExport) :=
  list_faults export_sound (fun _ _ => export_runs) export_faults
theorem elems_faults : Faults (decodeList parseElem : Dec R _ _) (FList FElem BElem) :=
  list_faults elem_sound (fun _ _ => elem_runs) elem_faults
theorem datas_faults : Faults (decodeList parseData : Dec R _ _) (FList FData BData) :=
  list_faults data_sound (fun _ _ => data_runs) data_faults

/-- What a section body that is one part only does when that part fails. -/
theorem part_errs {ε ε' α β : Type} {d : Dec R ε α} {F : End → Bytes → ε → Prop} {g : ε → ε'}
    {f : α → β} {P : End → Bytes → ε' → Prop} (h : Faults d F) (hF : ∀ x b e, F x b e → P x b (g e)) :
    Errs (d.mapErr g >>= fun v => (Pure.pure (f v) : Dec R ε' β)) P :=
  Errs.last (Errs.mapErr (Errs.mono h.errs hF))

theorem noErr_fillFuncs {F : End → Bytes → DecodeModuleError → Prop} : ∀ (codes : List Code) (i : Nat)
    (funcs : List Func) (enc : Bool), Errs (fillFuncs codes i funcs enc : Dec R _ _) F := by
  intro codes
  induction codes with
  | nil => intro i funcs enc; exact Errs.pure
  | cons c cs ih =>
    intro i funcs enc
    unfold fillFuncs
    split
    · exact Errs.panic
    · exact ih _ _ _

theorem contents_errs (k : SectionKind) (st : LoopState) : Errs (decodeSectionBody k st : Dec R _ _)
    (fun x b e => e.inner = some k → FContents x k b e) := by
  cases k with
  | Custom => exact part_errs custom_faults fun x b e h _ => h
  | «Type» => exact Errs.last (Errs.mapErr (Errs.mapErr (Errs.mono recTypes_faults.errs fun x b e h _ => .type h)))
  | Import => exact Errs.last (Errs.mapErr (Errs.mapErr (Errs.mono imports_faults.errs fun x b e h _ => .import h)))
  | Function => exact Errs.last (Errs.mapErr (Errs.mapErr (Errs.mono typeIdxs_faults.errs fun x b e h _ => .function h)))
  | Table => exact Errs.last (Errs.mapErr (Errs.mapErr (Errs.mono tables_faults.errs fun x b e h _ => .table h)))
  | Memory => exact Errs.last (Errs.mapErr (Errs.mapErr (Errs.mono mems_faults.errs fun x b e h _ => .memory h)))
  | Tag => exact Errs.last (Errs.mapErr (Errs.mapErr (Errs.mono tags_faults.errs fun x b e h _ => .tag h)))
  | Global => exact Errs.last (Errs.mapErr (Errs.mapErr (Errs.mono globals_faults.errs fun x b e h _ => .global h)))
  | Export => exact Errs.last (Errs.mapErr (Errs.mapErr (Errs.mono exports_faults.errs fun x b e h _ => .export h)))
  | Start => exact Errs.last (Errs.mapErr (Errs.mapErr (Errs.mono FuncIdx.faults.errs fun x b e h _ => .start h)))
  | Element => exact Errs.last (Errs.mapErr (Errs.mapErr (Errs.mono elems_faults.errs fun x b e h _ => .element h)))
  | DataCount => exact Errs.last (Errs.mapErr (Errs.mapErr (Errs.mono u32_faults.errs fun x b e h _ => .dataCount h)))
  | Code =>
    refine Errs.bind (P := BList BCodeD) (Errs.mapErr (Errs.mapErr (Errs.mono codes_faults.errs
      fun x b e h _ => .code h))) (Sound.mapErr (Sound.mapErr (list_sound code_sound))) fun v b _ => ?_
    refine Errs.ite (fun _ => Errs.err fun x t h => by cases h) fun _ => ?_
    exact Errs.last (noErr_fillFuncs _ _ _ _)
  | Data =>
    refine Errs.bind (P := BList BData) (Errs.mapErr (Errs.mapErr (Errs.mono datas_faults.errs
      fun x b e h _ => .data h))) (Sound.mapErr (Sound.mapErr (list_sound data_sound))) fun v b _ => ?_
    split
    · exact Errs.ite (fun _ => Errs.err fun x t h => by cases h) fun _ => Errs.pure
    · exact Errs.pure

theorem contents_failsIn {k : SectionKind} {x : End} {bs : Bytes} {e : DecodeModuleError}
    (h : FContents x k bs e) (st : LoopState) : FailsIn (R := R) (decodeSectionBody k st) x bs e := by
  cases h with
  | customName h => exact FailsIn.bind1 (FailsIn.mapErr (custom_faults.fails (.customName h)))
  | customRead h1 h2 => exact FailsIn.bind1 (FailsIn.mapErr (custom_faults.fails (.customRead h1 h2)))
  | type h => exact FailsIn.bind1 (FailsIn.mapErr (FailsIn.mapErr (recTypes_faults.fails h)))
  | «import» h => exact FailsIn.bind1 (FailsIn.mapErr (FailsIn.mapErr (imports_faults.fails h)))
  | function h => exact FailsIn.bind1 (FailsIn.mapErr (FailsIn.mapErr (typeIdxs_faults.fails h)))
  | table h => exact FailsIn.bind1 (FailsIn.mapErr (FailsIn.mapErr (tables_faults.fails h)))
  | memory h => exact FailsIn.bind1 (FailsIn.mapErr (FailsIn.mapErr (mems_faults.fails h)))
  | tag h => exact FailsIn.bind1 (FailsIn.mapErr (FailsIn.mapErr (tags_faults.fails h)))
  | «global» h => exact FailsIn.bind1 (FailsIn.mapErr (FailsIn.mapErr (globals_faults.fails h)))
  | «export» h => exact FailsIn.bind1 (FailsIn.mapErr (FailsIn.mapErr (exports_faults.fails h)))
  | start h => exact FailsIn.bind1 (FailsIn.mapErr (FailsIn.mapErr (FuncIdx.faults.fails h)))
  | element h => exact FailsIn.bind1 (FailsIn.mapErr (FailsIn.mapErr (elems_faults.fails h)))
  | dataCount h => exact FailsIn.bind1 (FailsIn.mapErr (FailsIn.mapErr (u32_faults.fails h)))
  | code h => exact FailsIn.bind1 (FailsIn.mapErr (FailsIn.mapErr (codes_faults.fails h)))
  | data h => exact FailsIn.bind1 (FailsIn.mapErr (FailsIn.mapErr (datas_faults.fails h)))

theorem FContents.inner {k : SectionKind} {x : End} {bs : Bytes} {e : DecodeModuleError}
    (h : FContents x k bs e) : e.inner = some k := by cases h <;> rfl

/-! ### Headers -/

theorem header_faults : Faults (decodeSectionHeader : Dec R _ _) FHeader := by
  intro r e
  cases hav : avail r with
  | nil =>
    obtain ⟨r1, h1⟩ := header_nil hav
    rw [h1]
    split
    · rename_i hf
      constructor
      · rintro ⟨r', h⟩; cases h
      · intro h
        cases h with
        | missing hf' => exact absurd hf hf'
    · rename_i hf
      constructor
      · rintro ⟨r', h⟩; cases h; exact .missing hf
      · intro h
        cases h with
        | missing hf' => exact ⟨_, rfl⟩
  | cons b rest =>
    obtain ⟨r1, a1, e1⟩ := header_cons hav
    have av1 : avail r1 = rest := by
      have := adv_avail a1
      rw [hav] at this
      simpa using this.symm
    rw [e1]
    cases hm : fromMarker SectionKind.markers b with
    | none =>
      have hn : ∀ k, sectionId k ≠ b := by
        intro k hk
        rw [markers_iff.2 hk.symm] at hm; cases hm
      simp only [sectionHeaderRest, hm]
      constructor
      · rintro ⟨r', h⟩; cases h; exact .id hn
      · intro h
        generalize hb : b :: rest = bs at h
        cases h with
        | missing => cases hb
        | id => cases hb; exact ⟨_, rfl⟩
        | @size _ _ k => cases hb; exact absurd rfl (hn k)
    | some k =>
      have hk := markers_iff.1 hm
      subst hk
      simp only [sectionHeaderRest, hm]
      constructor
      · rintro ⟨r', h⟩
        have := Errs.last (R := R) (f := fun size => some (SectionHeader.mk k size)) (Errs.mapErr (Errs.mono u32_faults.errs
          fun x b e h => FHeader.size (k := k) h)) _ _ _ h
        rwa [av1, adv_fin a1] at this
      · intro h
        generalize hb : sectionId k :: rest = bs at h
        cases h with
        | missing => cases hb
        | id hn => cases hb; exact absurd rfl (hn k)
        | size h =>
          simp only [List.cons.injEq] at hb
          obtain ⟨_, rfl⟩ := hb
          exact FailsIn.bind1 (FailsIn.mapErr (u32_faults.fails h)) r1 av1 (adv_fin a1)

/-! ### Modules -/

theorem module_faults : Faults (decodeModule : Dec R _ _) FModule := by
  intro r e
  constructor
  · rintro ⟨r', h⟩
    have hin : ∀ k, e.inner = some k → FModule (fin r) (avail r) e := by
      intro k hk
      obtain ⟨secs, size, r1, t, h1, h2, h3, h4⟩ := inner_place h hk
      have := contents_errs k _ _ _ _ h4 hk
      refine .contents h1 h2 ?_
      rw [← h3]
      exact this
    cases e with
    | ParsePreamble e =>
      rcases c39_iff.1 ⟨r', h⟩ with ⟨h1, rfl⟩ | ⟨h1, h2, rfl⟩
      · exact .preambleShort h1
      · have := FModule.preamble (x := fin r) (b := (avail r).take 8) (t := (avail r).drop 8)
          (by simp; omega) h2
        rwa [List.take_append_drop] at this
    | CodeFuncEntriesLenMismatch c f =>
      rcases c24_mismatch.1 ⟨r', h⟩ with ⟨secs, size, content, rest, cs, h1, h2, h3, h4, rfl, rfl, h5⟩ |
        ⟨secs, h1, h2, h3, rfl, rfl, h4⟩
      · exact .codeCount h1 h2 h3 h4 h5
      · exact .noCode h1 h2 h3 fun hn => h4 (by rw [hn]; rfl)
    | DataCountMismatch d n =>
      obtain ⟨secs, size, content, rest, ds, h1, h2, h3, h4, rfl, h5, h6⟩ := c27_mismatch.1 ⟨r', h⟩
      exact .dataCount h1 h2 h3 h4 h5 h6
    | SectionOutOfOrder k p =>
      obtain ⟨secs, size, rest, h1, h2, h3⟩ := c19_outOfOrder.1 ⟨r', h⟩
      exact .order h1 h2 h3
    | DuplicateSection k =>
      obtain ⟨secs, size, rest, h1, h2⟩ := c19_duplicate.1 ⟨r', h⟩
      exact .duplicate h1 h2
    | SectionSizeMismatch k declared got =>
      obtain ⟨hlt, ⟨secs, content, rest, s, h1, h2, h3, h4, h5, h6⟩ | ⟨secs, rest, c, h1, rfl, h3, h4, h5⟩⟩ :=
        c40_size.1 ⟨r', h⟩
      · exact .size h1 h2 h3 h4 h5 h6.symm (by omega)
      · exact .customSize h1 h3 h4 h5.symm (by omega)
    | DataCountDatasLenMismatch d n =>
      obtain ⟨secs, h1, h2, h3, h4, rfl, h5, h6⟩ := c27_missing.1 ⟨r', h⟩
      exact .noData h1 h2 h6 h4 h3 h5
    | DecodeDataCount => exact absurd h c52_never
    | DataIndexWithoutDataCount =>
      obtain ⟨secs, h1, h2, h3, h4, h5⟩ := c28_reject.1 ⟨r', h⟩
      exact .noDataCount h1 h2 h5 h3 h4
    | DecodeSectionHeader x =>
      obtain ⟨secs, r1, h1, h2, h3⟩ := header_place h
      refine .header h1 ?_
      rw [← h2]
      exact (header_faults r1 x).1 ⟨_, h3⟩
    | _ => exact hin _ rfl
  · intro h
    generalize hx : fin r = x at h
    generalize hi : avail r = inp at h
    subst hx
    cases h with
    | preambleShort h1 => subst hi; exact c39_iff.2 (.inl ⟨h1, rfl⟩)
    | preamble h1 h2 => exact c39_unexpected hi h1 h2
    | header h1 h2 =>
      subst hi
      obtain ⟨r1, h3, h4, h5⟩ := place_header h1
      obtain ⟨r', h6⟩ := (header_faults r1 _).2 (by rw [h3, h4]; exact h2)
      exact ⟨r', h5 _ _ h6⟩
    | duplicate h1 h2 => subst hi; exact c19_duplicate.2 ⟨_, _, _, h1, h2⟩
    | order h1 h2 h3 => subst hi; exact c19_outOfOrder.2 ⟨_, _, _, h1, h2, h3⟩
    | @contents _ _ k n c _ h1 h2 h3 =>
      subst hi
      obtain ⟨st, r1, h4, h5, h6⟩ := body_place h1 h2
      obtain ⟨t, h7⟩ := contents_failsIn (R := Take R) h3 st { limit := n.toNat, inner := r1 }
        (by rw [← h4]; rfl) (by rw [take_fin, h4, h5])
      exact h6 _ _ h7
    | codeCount h1 h2 h3 h4 h5 =>
      subst hi; exact c24_mismatch.2 (.inl ⟨_, _, _, _, _, h1, h2, h3, h4, rfl, rfl, h5⟩)
    | dataCount h1 h2 h3 h4 h5 h6 =>
      subst hi; exact c27_mismatch.2 ⟨_, _, _, _, _, h1, h2, h3, h4, rfl, h5, h6⟩
    | size h1 h2 h3 h4 h5 h6 h7 =>
      subst hi; exact c40_size.2 ⟨by omega, .inl ⟨_, _, _, _, h1, h2, h3, h4, h5, h6.symm⟩⟩
    | customSize h1 h2 h3 h4 h5 =>
      subst hi; exact c40_size.2 ⟨by omega, .inr ⟨_, _, _, h1, rfl, h2, h3, h4.symm⟩⟩
    | noCode h1 h2 h3 h4 =>
      subst hi
      refine c24_mismatch.2 (.inr ⟨_, h1, h2, h3, rfl, rfl, fun hn => h4 ?_⟩)
      exact List.length_eq_zero_iff.1 hn.symm
    | noData h1 h2 h3 h4 h5 h6 =>
      subst hi; exact c27_missing.2 ⟨_, h1, h2, h5, h4, rfl, h6, h3⟩
    | noDataCount h1 h2 h3 h4 h5 =>
      subst hi; exact c28_reject.2 ⟨_, h1, h2, h4, h5, h3⟩

end Wadec
