import Verif.Proof.MarkInstr

/-! C41: complaints about sections and modules. -/

namespace Wadec

open Wadec.Spec LawfulRead MarkOf

variable {R : Type} [LawfulRead R] {acc : Bytes}

/-! ### Entries of sections -/

theorem expr'_bl : Bl acc (decodeExpr' : Dec R _ _) := by
  refine Bl.bind expr_bl ?_
  rintro ⟨e, _⟩
  exact Bl.pure

theorem codeLocal_bl (st : UInt64) : Bl acc (parseCodeLocal st : Dec R _ _) := by
  refine Bl.bind (bmap u32_bl) fun _ => Bl.ite (fun _ => Bl.panic) fun _ => ?_
  refine Bl.ite (fun _ => Bl.errNone rfl) fun _ => Bl.bind (bmap ValType.bl) fun _ => Bl.pure

theorem codeBody_bl : Bl acc (parseCodeBody : Dec R _ _) := by
  refine Bl.bind (bmap (listS_bl codeLocal_bl)) ?_
  rintro ⟨locals, _⟩
  refine Bl.bind (bmap expr_bl) ?_
  rintro ⟨e, d⟩
  exact Bl.pure

theorem code_bl : Bl acc (parseCode : Dec R _ _) := by
  refine Bl.bind (bmap u32_bl) fun size => Bl.bind (Bl.withTake codeBody_bl) ?_
  rintro ⟨⟨locals, e, d⟩, limit⟩
  exact Bl.ite (fun _ => Bl.errNone rfl) fun _ => Bl.pure

/-- Nothing starts with bytes on which a complete decoder fails. -/
theorem fails_runs {ε α : Type} {d : Dec Src ε α} {enc t : Bytes} {e : ε} {v : α}
    (hf : Fails d enc e) : ¬ Runs d (enc ++ t) v := by
  intro hr
  obtain ⟨_, h1, _⟩ := hr (Src.ofBytes (enc ++ t)) [] (by rw [avail_ofBytes]; simp)
  obtain ⟨_, h2⟩ := hf (Src.ofBytes (enc ++ t)) t (by rw [avail_ofBytes])
  rw [h1] at h2
  cases h2

theorem data_bl : Bl acc (parseData : Dec R _ _) := by
  refine Bl.bindT (Sound.mapErr decodeU32_sound) (bmap u32_bl) fun n bs hn => ?_
  refine Bl.ite (fun _ => ?_) fun h1 => Bl.ite (fun _ => ?_) fun h2 => Bl.ite (fun _ => ?_) fun h3 => ?_
  · exact Bl.bind (bmap expr'_bl) fun _ => Bl.bind (bmap byteVec_bl) fun _ => Bl.pure
  · exact Bl.bind (bmap byteVec_bl) fun _ => Bl.pure
  · exact Bl.bind (bmap MemIdx.bl) fun _ => Bl.bind (bmap expr'_bl) fun _ =>
      Bl.bind (bmap byteVec_bl) fun _ => Bl.pure
  · refine Bl.err ?_
    rintro m ⟨⟩
    refine ⟨acc, bs, rfl, ?_, hn, ?_⟩
    · rintro rfl
      exact BU.nonempty hn
    rintro t ⟨d, hd⟩
    have hf : Fails (R := Src) parseData (bs ++ []) (.InvalidBitfield n) :=
      Fails.bind2 (Runs.mapErr (decodeU32_runs hn))
        (Fails.ite_neg h1 (Fails.ite_neg h2 (Fails.ite_neg h3 Fails.err)))
    rw [List.append_nil] at hf
    exact fails_runs hf (data_runs hd)

theorem elemKind_bl : Bl acc (parseElemKind : Dec R _ _) := by
  refine Bl.byteT (fun _ => rfl) fun b => Bl.ite (fun h => ?_) fun _ => Bl.pure
  refine Bl.errByte rfl rfl ?_
  rintro t ⟨s, hs⟩
  exact h (List.cons.inj hs).1

theorem elemFuncs_bl : Bl acc (elemFuncs : Dec R _ _) := bmap (list_bl FuncIdx.bl)
theorem elemExprs_bl : Bl acc (elemExprs : Dec R _ _) := bmap (list_bl expr'_bl)

theorem elem_bl : Bl acc (parseElem : Dec R _ _) := by
  refine Bl.bindT (Sound.mapErr decodeU32_sound) (bmap u32_bl) fun n bs hn => ?_
  refine Bl.ite (fun _ => ?_) fun h1 => Bl.ite (fun _ => ?_) fun h2 => Bl.ite (fun _ => ?_) fun h3 =>
    Bl.ite (fun _ => ?_) fun h4 => Bl.ite (fun _ => ?_) fun h5 => Bl.ite (fun _ => ?_) fun h6 =>
    Bl.ite (fun _ => ?_) fun h7 => Bl.ite (fun _ => ?_) fun h8 => ?_
  · exact Bl.bind (bmap expr'_bl) fun _ => Bl.bind elemFuncs_bl fun _ => Bl.pure
  · exact Bl.bind (bmap elemKind_bl) fun _ => Bl.bind elemFuncs_bl fun _ => Bl.pure
  · exact Bl.bind (bmap TableIdx.bl) fun _ => Bl.bind (bmap expr'_bl) fun _ =>
      Bl.bind (bmap elemKind_bl) fun _ => Bl.bind elemFuncs_bl fun _ => Bl.pure
  · exact Bl.bind (bmap elemKind_bl) fun _ => Bl.bind elemFuncs_bl fun _ => Bl.pure
  · exact Bl.bind (bmap expr'_bl) fun _ => Bl.bind elemExprs_bl fun _ => Bl.pure
  · exact Bl.bind (bmap RefType.bl) fun _ => Bl.bind elemExprs_bl fun _ => Bl.pure
  · exact Bl.bind (bmap TableIdx.bl) fun _ => Bl.bind (bmap expr'_bl) fun _ =>
      Bl.bind (bmap RefType.bl) fun _ => Bl.bind elemExprs_bl fun _ => Bl.pure
  · exact Bl.bind (bmap RefType.bl) fun _ => Bl.bind elemExprs_bl fun _ => Bl.pure
  · refine Bl.err ?_
    rintro m ⟨⟩
    refine ⟨acc, bs, rfl, ?_, hn, ?_⟩
    · rintro rfl
      exact BU.nonempty hn
    rintro t ⟨d, hd⟩
    have hf : Fails (R := Src) parseElem (bs ++ []) (.InvalidBitfield n) :=
      Fails.bind2 (Runs.mapErr (decodeU32_runs hn))
        (Fails.ite_neg h1 (Fails.ite_neg h2 (Fails.ite_neg h3 (Fails.ite_neg h4 (Fails.ite_neg h5
          (Fails.ite_neg h6 (Fails.ite_neg h7 (Fails.ite_neg h8 Fails.err))))))))
    rw [List.append_nil] at hf
    exact fails_runs hf (elem_runs hd)

theorem export_bl : Bl acc (parseExport : Dec R _ _) := by
  refine Bl.bind (bmap name_bl) fun _ => Bl.byteT (fun _ => rfl) fun b => ?_
  refine Bl.bindT (Sound.mapErr decodeU32_sound) (bmap u32_bl) fun n bs hn => ?_
  have h : Bl ([] ++ [b] ++ bs) (ExternIdx.from b n : Dec R _ _) := by
    refine Bl.ite (fun _ => Bl.pure) fun h1 => Bl.ite (fun _ => Bl.pure) fun h2 =>
      Bl.ite (fun _ => Bl.pure) fun h3 => Bl.ite (fun _ => Bl.pure) fun h4 =>
      Bl.ite (fun _ => Bl.pure) fun h5 => ?_
    refine Bl.err ?_
    rintro m ⟨⟩
    refine ⟨[], b :: bs, rfl, by simp, ⟨bs, n, hn, rfl⟩, ?_⟩
    rintro t ⟨x, hx⟩
    cases hx with
    | func => exact h1 rfl
    | table => exact h2 rfl
    | mem => exact h3 rfl
    | global => exact h4 rfl
    | tag => exact h5 rfl
  have h' : Bl ([] ++ [b] ++ bs) ((ExternIdx.from b n).mapErr
      DecodeExportError.InvalidDescriptorMarkerByte : Dec R _ _) :=
    Bl.mapErr (f := DecodeExportError.InvalidDescriptorMarkerByte) h (fun _ _ => id)
  exact Bl.bindT (T := fun _ _ => True) h'.1 h' fun _ _ _ => Bl.pure

theorem import_bl : Bl acc (parseImport : Dec R _ _) :=
  Bl.bind (bmap name_bl) fun _ => Bl.bind (bmap name_bl) fun _ => Bl.bind (bmap ExternType.bl) fun _ =>
    Bl.pure

theorem global_bl : Bl acc (parseGlobal : Dec R _ _) :=
  Bl.bind (bmap GlobalType.bl) fun _ => Bl.bind (bmap expr'_bl) fun _ => Bl.pure

theorem table_bl : Bl acc (decodeTable : Dec R _ _) := by
  refine Bl.any (Bl.byteT (fun _ => rfl) fun b => ?_)
  refine Bl.ite (fun hb => Bl.byteT (fun _ => rfl) fun c => ?_) fun _ => ?_
  · refine Bl.ite (fun hc => Bl.err ?_) fun _ =>
      Bl.bind (bmap TableType.bl) fun _ => Bl.bind (bmap expr'_bl) fun _ => Bl.pure
    rintro m ⟨⟩
    subst hb
    refine ⟨[], [0x40, c], rfl, by simp, rfl, ?_⟩
    rintro t ⟨d, hd⟩
    have hf : Fails (R := Src) decodeTable [0x40, c] (.UnexpectedMarkerByte c) :=
      Fails.bind2 (b1 := [0x40]) (b2 := [c]) (Runs.mapErr Runs.readByte) (Fails.ite_pos rfl
        (Fails.bind2 (b1 := [c]) (b2 := []) (Runs.mapErr Runs.readByte) (Fails.ite_pos hc Fails.err)))
    exact fails_runs hf (table_runs hd)
  · exact Bl.bindT (T := fun _ _ => True) (Sound.mapErr ((Sound.withChain TableType.sound
      (fun _ => BTableType.nonempty)).mono fun _ _ _ => trivial))
      (bmap (Bl.withChain TableType.sound (fun _ => BTableType.nonempty) TableType.bl.2))
      fun _ _ _ => Bl.pure

/-! ### Sections -/

theorem fillFuncs_errNone : ∀ (cs : List Code) (i : Nat) (fs : List Func) (enc : Bool) (r r' : R)
    (e : DecodeModuleError), fillFuncs cs i fs enc r ≠ (.err e, r')
  | [], _, _, _, _, _, _ => by
    intro h
    cases h
  | c :: cs, i, fs, enc, r, r', e => by
    intro h
    simp only [fillFuncs] at h
    generalize fs[i]? = o at h
    cases o with
    | none => cases h
    | some f => exact fillFuncs_errNone cs _ _ _ _ _ _ h

/-- Blame for a list of entries that is wrapped twice. -/
theorem blame_section {ε ε' α β : Type} [MarkOf ε] [MarkOf ε'] {d : Dec R ε α} {f : ε → ε'}
    {k : α → Dec R ε' β} (hd : Bl [] d) (hf : ∀ e m, mark (f e) = some m → mark e = some m)
    (hk : ∀ v r e r', k v r = (.err e, r') → mark e = none) : Blame [] (d.mapErr f >>= k) := by
  intro r e r' m he hm
  rcases Dec.bind_err he with he | ⟨v, r1, _, he⟩
  · exact (Bl.mapErr hd hf).2 _ _ _ m he hm
  · rw [hk _ _ _ _ he] at hm
    cases hm

macro "bsec" t:term : tactic => `(tactic|
  exact blame_section $t (fun _ _ => id) (fun _ _ _ _ h => by cases h))

theorem sectionBody_blame (k : SectionKind) (st : LoopState) :
    Blame [] (decodeSectionBody k st : Dec R _ _) := by
  cases k with
  | Custom =>
    intro r e r' m he hm
    obtain ⟨e0, h1, rfl⟩ := bind_pure_err he
    exfalso
    cases e0 with
    | DecodeName e =>
      cases e with
      | DecodeByteVector e =>
        cases e with
        | DecodeLength e => exact absurd ((u32_none e).symm.trans hm) (by simp)
        | ReadElements e => cases hm
      | Utf8 e => cases hm
    | Io e => cases hm
  | «Type» => bsec (bmap (list_bl RecType.bl))
  | Import => bsec (bmap (list_bl import_bl))
  | Function => bsec (bmap (list_bl TypeIdx.bl))
  | Table => bsec (bmap (list_bl table_bl))
  | Memory => bsec (bmap (list_bl memType_bl))
  | Tag => bsec (bmap (list_bl TagType.bl))
  | Global => bsec (bmap (list_bl global_bl))
  | Export => bsec (bmap (list_bl export_bl))
  | Start => bsec (bmap FuncIdx.bl)
  | Element => bsec (bmap (list_bl elem_bl))
  | DataCount => bsec (bmap u32_bl)
  | Code =>
    refine blame_section (bmap (list_bl code_bl)) (fun _ _ => id) ?_
    intro v r e r' h
    split at h
    · cases h
      rfl
    · rcases Dec.bind_err h with h | ⟨_, _, _, h⟩
      · exact absurd h (fillFuncs_errNone _ _ _ _ _ _ _)
      · cases h
  | Data =>
    refine blame_section (bmap (list_bl data_bl)) (fun _ _ => id) ?_
    intro v r e r' h
    generalize st.module.data_count = o at h
    cases o with
    | none => cases h
    | some n =>
      simp only at h
      split at h
      · cases h
        rfl
      · cases h

theorem headerRest_blame {id : UInt8} : Blame [id] (sectionHeaderRest id : Dec R _ _) := by
  intro r e r' m he hm
  unfold sectionHeaderRest at he
  cases hf : fromMarker SectionKind.markers id with
  | none =>
    rw [hf] at he
    refine (Bl.errByte (acc := []) (m := .sectionId id) (R := R) rfl rfl ?_).2 _ _ _ _ he hm
    rintro t ⟨s, hs⟩
    generalize hb : id :: t = bs at hs
    cases hs with
    | mk h1 h2 h3 =>
      rw [markers_iff.2 (List.cons.inj hb).1] at hf
      cases hf
  | some k =>
    rw [hf] at he
    obtain ⟨e0, h1, rfl⟩ := bind_pure_err he
    exact absurd ((u32_none e0).symm.trans hm) (by simp)

theorem header_blame : Blame [] (decodeSectionHeader : Dec R _ _) := by
  intro r e r' m he hm
  cases hav : avail r with
  | nil =>
    obtain ⟨r1, h1⟩ := header_nil hav
    rw [he] at h1
    split at h1 <;> cases h1
    cases hm
  | cons b rest =>
    obtain ⟨r0, a1, h1⟩ := header_cons hav
    rw [he] at h1
    obtain ⟨pre, enc, h3, h4, h5, t, h6⟩ := headerRest_blame _ _ _ m h1.symm hm
    refine ⟨pre, enc, h3, h4, fun h => ?_, t, by rw [← h6, adv_avail a1]; rfl⟩
    obtain ⟨cons, h7, h8⟩ := h5 h
    exact ⟨[b] ++ cons, adv_trans a1 h7, h8⟩

theorem preamble_bl : Bl acc (parsePreamble : Dec R _ _) := by
  refine Bl.bindT (Sound.mapErr Sound.readExact) (bmap (io_bl Sound.readExact)) ?_
  rintro v bs ⟨rfl, hl⟩
  refine Bl.ite (fun h => Bl.err ?_) fun _ => Bl.pure
  rintro m ⟨⟩
  refine ⟨acc, bs, rfl, ?_, rfl, ?_⟩
  · rintro rfl
    cases hl
  · rintro t ⟨s, hs⟩
    exact h ((List.append_inj hs hl).1)

/-! ### Modules -/

theorem Located.prefix {m : Mark} {pre : Bytes} {r r1 r' : R} (h : Adv pre r r1)
    (hl : Located [] m r1 r') : Located [] m r r' := by
  obtain ⟨p, enc, h3, h4, h5, t, h6⟩ := hl
  refine ⟨pre ++ p, enc, h3, h4, fun hx => ?_, t, ?_⟩
  · obtain ⟨cons, h7, h8⟩ := h5 hx
    exact ⟨pre ++ cons, adv_trans h h7, by simp only [List.nil_append] at h8 ⊢; rw [h8]; simp⟩
  · simp only [List.nil_append] at h6 ⊢
    rw [adv_avail h, h6]
    simp

theorem Located.ofTake {m : Mark} {n : Nat} {r : R} {t : Take R}
    (h : Located [] m ({ limit := n, inner := r } : Take R) t) : Located [] m r t.inner := by
  obtain ⟨pre, enc, h3, h4, h5, rest, h6⟩ := h
  refine ⟨pre, enc, h3, h4, fun hx => ?_, rest ++ (avail r).drop n, ?_⟩
  · obtain ⟨cons, ⟨_, h7⟩, h8⟩ := h5 hx
    exact ⟨cons, h7, h8⟩
  · rw [← List.append_assoc, ← h6]
    simp [avail]

theorem module_blame : Blame [] (decodeModule : Dec R _ _) := by
  intro r e r' m he hm
  cases module_err he with
  | preamble h => exact preamble_bl.2 _ _ _ m h hm
  | header h1 _ _ h2 => exact (header_blame _ _ _ m h2 hm).prefix h1
  | sect _ _ _ h1 h2 =>
    cases h2 with
    | duplicate => cases hm
    | order => cases hm
    | size => cases hm
    | customSize => cases hm
    | body ht _ hb =>
      subst ht
      exact (sectionBody_blame _ _ _ _ _ m hb hm).ofTake.prefix h1
  | final _ _ _ _ h => cases h <;> cases hm

end Wadec
