import Verif.Proof.ModuleG
import Verif.Spec.Place

/-! Where and why `decode_module` fails. -/

namespace Wadec

open Wadec.Spec LawfulRead

variable {R : Type} [LawfulRead R]

omit [LawfulRead R] in
theorem bind_pure_err {ε ε' α β : Type} {d : Dec R ε α} {f : ε → ε'} {g : α → β} {r r' : R} {e : ε'}
    (h : (do let x ← d.mapErr f; pure (g x) : Dec R ε' β) r = (.err e, r')) :
    ∃ e0, d r = (.err e0, r') ∧ e = f e0 := by
  simp only [Bind.bind, Dec.bind, Dec.mapErr] at h
  rcases hd : d r with ⟨res, r1⟩
  rw [hd] at h
  cases res with
  | ok v => simp [Pure.pure, Dec.ok] at h
  | err e0 => simp only [Prod.mk.injEq, Res.err.injEq] at h; exact ⟨e0, by rw [h.2], h.1.symm⟩
  | panic => simp at h
  | fuel => simp at h

/-- Errors of the contents of a section. -/
inductive BodyErr (k : SectionKind) (st : LoopState) (r r' : R) : DecodeModuleError → Prop
  | inner {e} : e.inner = some k → BodyErr k st r r' e
  | code {cs bs} : k = .Code → Adv bs r r' → BContents bs (.code cs) →
      cs.length ≠ st.module.funcs.length →
      BodyErr k st r r' (.CodeFuncEntriesLenMismatch cs.length st.module.funcs.length)
  | data {ds bs n} : k = .Data → Adv bs r r' → BContents bs (.data ds) →
      st.module.data_count = some n → ds.length ≠ n.toNat →
      BodyErr k st r r' (.DataCountMismatch ds.length n)

theorem body_err {k : SectionKind} {st : LoopState} {r r' : R} {e : DecodeModuleError}
    (h : decodeSectionBody k st r = (.err e, r')) : BodyErr k st r r' e := by
  cases k with
  | Custom => obtain ⟨e0, _, rfl⟩ := bind_pure_err h; exact .inner rfl
  | «Type» => obtain ⟨e0, _, rfl⟩ := bind_pure_err h; exact .inner rfl
  | Import => obtain ⟨e0, _, rfl⟩ := bind_pure_err h; exact .inner rfl
  | Function => obtain ⟨e0, _, rfl⟩ := bind_pure_err h; exact .inner rfl
  | Table => obtain ⟨e0, _, rfl⟩ := bind_pure_err h; exact .inner rfl
  | Memory => obtain ⟨e0, _, rfl⟩ := bind_pure_err h; exact .inner rfl
  | Tag => obtain ⟨e0, _, rfl⟩ := bind_pure_err h; exact .inner rfl
  | Global => obtain ⟨e0, _, rfl⟩ := bind_pure_err h; exact .inner rfl
  | Export => obtain ⟨e0, _, rfl⟩ := bind_pure_err h; exact .inner rfl
  | Start => obtain ⟨e0, _, rfl⟩ := bind_pure_err h; exact .inner rfl
  | Element => obtain ⟨e0, _, rfl⟩ := bind_pure_err h; exact .inner rfl
  | DataCount => obtain ⟨e0, _, rfl⟩ := bind_pure_err h; exact .inner rfl
  | Code =>
    simp only [decodeSectionBody, Bind.bind, Dec.bind, Dec.mapErr] at h
    rcases hd : (decodeCodeSection r : _ × _) with ⟨res, r1⟩
    rw [hd] at h
    cases res with
    | ok cs =>
      simp only at h
      obtain ⟨bs, ha, hb⟩ := (Sound.mapErr (list_sound code_sound)) _ _ _ hd
      have hb := BContents.code (list_map Code.toEntry (fun _ _ h => h.toBCode) hb)
      by_cases hl : cs.length = st.module.funcs.length
      · rw [if_neg (by simpa using hl)] at h
        have := fillFuncs_eq (R := R) cs [] st.module.funcs st.encountered_data_idx_in_code_section hl
        simp only [List.length_nil, List.nil_append] at this
        rw [this] at h
        simp [Dec.bind, Pure.pure, Dec.ok] at h
      · rw [if_pos hl] at h
        simp only [Dec.err, Prod.mk.injEq, Res.err.injEq] at h
        obtain ⟨rfl, rfl⟩ := h
        have := BodyErr.code (k := .Code) (st := st) rfl ha hb (by simpa using hl)
        simpa using this
    | err e0 =>
      simp only [Prod.mk.injEq, Res.err.injEq] at h
      obtain ⟨rfl, _⟩ := h
      exact .inner rfl
    | panic => simp at h
    | fuel => simp at h
  | Data =>
    simp only [decodeSectionBody, Bind.bind, Dec.bind, Dec.mapErr] at h
    rcases hd : (decodeDataSection r : _ × _) with ⟨res, r1⟩
    rw [hd] at h
    cases res with
    | ok ds =>
      simp only at h
      obtain ⟨bs, ha, hb⟩ := (Sound.mapErr (list_sound data_sound)) _ _ _ hd
      have hb := BContents.data hb
      cases hn : st.module.data_count with
      | some n =>
        simp only [hn] at h
        by_cases hl : ds.length = n.toNat
        · rw [if_neg (by simpa using hl)] at h
          simp [Pure.pure, Dec.ok] at h
        · rw [if_pos hl] at h
          simp only [Dec.err, Prod.mk.injEq, Res.err.injEq] at h
          obtain ⟨rfl, rfl⟩ := h
          exact .data rfl ha hb hn hl
      | none => simp [hn, Pure.pure, Dec.ok] at h
    | err e0 =>
      simp only [Prod.mk.injEq, Res.err.injEq] at h
      obtain ⟨rfl, _⟩ := h
      exact .inner rfl
    | panic => simp at h
    | fuel => simp at h

/-- Errors of one section after its header. -/
inductive SecErr (pre : List (UInt32 × Section)) (h : SectionHeader) (r r' : R) :
    DecodeModuleError → Prop
  | duplicate : (nonCustom (pre.map Prod.snd)).getLast? = some h.kind →
      SecErr pre h r r' (.DuplicateSection h.kind)
  | order {p} : (nonCustom (pre.map Prod.snd)).getLast? = some p → h.kind ≠ .Custom →
      h.kind.rank < p.rank → SecErr pre h r r' (.SectionOutOfOrder h.kind p)
  | body {e} {t : Take R} : t.inner = r' →
      (∀ s : Section, s.kind = h.kind → Sorted (nonCustom (pre.map Prod.snd ++ [s]))) →
      decodeSectionBody h.kind (stateOf pre) ({ limit := h.size.toNat, inner := r } : Take R) =
        (.err e, t) → SecErr pre h r r' e
  | size {bs s got} :
      Sorted (nonCustom (pre.map Prod.snd ++ [s])) → secOk (stateOf pre) s →
      h.kind ≠ .Custom → s.kind = h.kind → Adv bs r r' → BContents bs s → bs.length < h.size.toNat →
      got.toNat = bs.length → SecErr pre h r r' (.SectionSizeMismatch h.kind h.size got)
  | customSize {c got} : h.kind = .Custom → BCustom (avail r) c →
      fin r = .eof → (avail r).length < h.size.toNat → got.toNat = (avail r).length →
      SecErr pre h r r' (.SectionSizeMismatch .Custom h.size got)

theorem section_err {pre : List (UInt32 × Section)} {h : SectionHeader} {r r' : R}
    {e : DecodeModuleError} (hacc : Acceptable (pre.map Prod.snd))
    (he : decodeSection h (stateOf pre) r = (.err e, r')) : SecErr pre h r r' e := by
  rcases validate_kind (R := R) h.kind (sorted_iff.2 hacc.order) with ⟨ho, hv⟩ | ⟨_, p, hp, hr, hk, hv⟩
  · rw [section_eq h _ hv] at he
    simp only [Bind.bind, Dec.bind, Dec.withTake] at he
    rcases hd : decodeSectionBody h.kind (stateOf pre) ({ limit := h.size.toNat, inner := r } : Take R)
      with ⟨res, t⟩
    rw [hd] at he
    cases res with
    | ok st' =>
      simp only at he
      split at he
      · rename_i hl
        simp only [Dec.err, Prod.mk.injEq, Res.err.injEq] at he
        obtain ⟨rfl, rfl⟩ := he
        by_cases hk : h.kind = .Custom
        · rw [hk] at hd ⊢
          simp only [decodeSectionBody, Bind.bind, Dec.bind, Dec.mapErr] at hd
          rcases hc : decodeSectionCustom ({ limit := h.size.toNat, inner := r } : Take R) with ⟨res, t1⟩
          rw [hc] at hd
          cases res with
          | ok c =>
            simp only [Pure.pure, Dec.ok, Prod.mk.injEq] at hd
            obtain ⟨_, rfl⟩ := hd
            rcases hn : decodeName ({ limit := h.size.toNat, inner := r } : Take R) with ⟨res, t2⟩
            cases res with
            | ok nm =>
              obtain ⟨b, a, hb⟩ := name_sound _ _ _ hn
              have hf : fin ({ limit := h.size.toNat, inner := r } : Take R) = .eof := by
                cases hf : fin ({ limit := h.size.toNat, inner := r } : Take R) with
                | eof => rfl
                | fail e =>
                  obtain ⟨t3, h3⟩ := (custom_spec hn a).2 e hf
                  rw [h3] at hc
                  simp at hc
              obtain ⟨t3, h3, l3, _⟩ := (custom_spec hn a).1 hf
              rw [h3] at hc
              simp only [Prod.mk.injEq, Res.ok.injEq] at hc
              obtain ⟨rfl, rfl⟩ := hc
              have hl2 := a.1
              have hav := adv_avail a
              simp only at hl2
              have hlen := congrArg List.length hav
              simp only [List.length_append] at hlen
              have hav0 : avail ({ limit := h.size.toNat, inner := r } : Take R) =
                  (avail r).take h.size.toNat := rfl
              rw [hav0, List.length_take] at hlen
              have hlt : (avail r).length < h.size.toNat := by omega
              rw [hav0, List.take_of_length_le (by omega)] at hav
              have hfr : fin r = .eof := by
                simp only [fin] at hf
                rw [if_neg (by omega)] at hf
                exact hf
              refine .customSize (c := ⟨nm, avail t2⟩) hk ?_ hfr hlt ?_
              · rw [hav]; exact BCustom.mk hb
              · rw [got_toNat]; omega
            | err e =>
              rw [custom_name_err hn] at hc
              simp at hc
            | panic => simp only [decodeSectionCustom, Bind.bind, Dec.bind, Dec.mapErr, hn] at hc; simp at hc
            | fuel => simp only [decodeSectionCustom, Bind.bind, Dec.bind, Dec.mapErr, hn] at hc; simp at hc
          | err e => simp at hd
          | panic => simp at hd
          | fuel => simp at hd
        · obtain ⟨bs, a, s, hs, hb, hok, _⟩ := body_sound hk _ _ _ _ hd
          have hl2 := a.1
          simp only at hl2
          refine .size (ho s hs) hok hk hs a.2 hb (by omega) ?_
          rw [got_toNat]; omega
      · simp [Pure.pure, Dec.ok] at he
    | err e1 =>
      simp only [Prod.mk.injEq, Res.err.injEq] at he
      obtain ⟨rfl, rfl⟩ := he
      exact .body rfl ho hd
    | panic => simp at he
    | fuel => simp at he
  · simp only [decodeSection, hv] at he
    simp only [Bind.bind, Dec.bind, Dec.err, Prod.mk.injEq, Res.err.injEq] at he
    obtain ⟨rfl, rfl⟩ := he
    split
    · rename_i hkp
      exact .duplicate (by rw [hkp]; exact hp)
    · rename_i hkp
      refine .order hp hk ?_
      have : h.kind.rank ≠ p.rank := fun h => hkp (SectionKind.rank_inj h)
      omega

/-- The outcome of the section loop when it fails: some acceptable sections were read, and then a
header or the section behind it failed. -/
theorem loop_err : ∀ (n : Nat) (pre : List (UInt32 × Section)) (r r' : R) (e : DecodeModuleError),
    sectionLoop n (stateOf pre) r = (.err e, r') → Acceptable (pre.map Prod.snd) →
    ∃ secs bs r1, Adv bs r r1 ∧ BSeq BSection bs secs ∧ Acceptable ((pre ++ secs).map Prod.snd) ∧
      ((∃ x, e = .DecodeSectionHeader x ∧ decodeSectionHeader r1 = (.err x, r')) ∨
       (∃ k size b1 r2, Adv (sectionId k :: b1) r1 r2 ∧ BU32 b1 size ∧
          decodeSection ⟨k, size⟩ (stateOf (pre ++ secs)) r2 = (.err e, r'))) := by
  intro n
  induction n with
  | zero => intro pre r r' e h; simp [sectionLoop, Dec.outOfFuel] at h
  | succ n ih =>
    intro pre r r' e h hacc
    simp only [sectionLoop, Bind.bind, Dec.bind, Dec.mapErr] at h
    rcases hh : (decodeSectionHeader r : _ × _) with ⟨res, r1⟩
    rw [hh] at h
    cases res with
    | ok o =>
      cases o with
      | none => simp [Pure.pure, Dec.ok] at h
      | some hd =>
        cases hav : avail r with
        | nil =>
          obtain ⟨r1', e1⟩ := header_nil hav
          rw [hh] at e1
          split at e1 <;> simp at e1
        | cons b rest =>
          obtain ⟨r0, a1, e1⟩ := header_cons hav
          rw [hh] at e1
          obtain ⟨bs, a2, k, size, hks, rfl, hsz⟩ := headerRest_sound _ _ _ e1.symm
          cases hks
          simp only [Dec.bind] at h
          rcases hs : (decodeSection ⟨k, size⟩ (stateOf pre) r1 : _ × _) with ⟨res, r3⟩
          rw [hs] at h
          cases res with
          | ok st' =>
            obtain ⟨bs2, a3, s, hk, hlen, hc, hacc', rfl⟩ := section_sound hacc _ _ _ hs
            simp only at h hk hlen
            obtain ⟨secs, bs3, r4, a4, h1, h2, h3⟩ := ih _ _ _ _ h (by simpa using hacc')
            refine ⟨(size, s) :: secs, (sectionId s.kind :: (bs ++ bs2)) ++ bs3, r4, ?_,
              BSeq.cons (BSection.mk hsz hlen hc) h1, by simpa using h2, by simpa using h3⟩
            have := adv_trans a1 (adv_trans a2 (adv_trans a3 a4))
            rw [hk]
            simpa using this
          | err e' =>
            simp only [Prod.mk.injEq, Res.err.injEq] at h
            obtain ⟨rfl, rfl⟩ := h
            exact ⟨[], [], r, adv_nil r, BSeq.nil, by simpa using hacc, .inr ⟨k, size, bs, r1,
              adv_trans a1 a2, hsz, by simpa using hs⟩⟩
          | panic => simp at h
          | fuel => simp at h
    | err x =>
      simp only [Prod.mk.injEq, Res.err.injEq] at h
      obtain ⟨rfl, rfl⟩ := h
      exact ⟨[], [], r, adv_nil r, BSeq.nil, by simpa using hacc, .inl ⟨x, rfl, hh⟩⟩
    | panic => simp at h
    | fuel => simp at h

/-- Errors of the checks after the last section. -/
inductive EndErr (secs : List (UInt32 × Section)) : DecodeModuleError → Prop
  | code : (∀ s ∈ secs.map Prod.snd, s.kind ≠ .Code) → typeIdxsOf (secs.map Prod.snd) ≠ [] →
      EndErr secs (.CodeFuncEntriesLenMismatch 0 (typeIdxsOf (secs.map Prod.snd)).length)
  | dataCount {n} : dataCountOf (secs.map Prod.snd) = some n →
      n.toNat ≠ (datasOf (secs.map Prod.snd)).length →
      (typeIdxsOf (secs.map Prod.snd)).length = (codesOf (secs.map Prod.snd)).length →
      EndErr secs (.DataCountDatasLenMismatch (datasOf (secs.map Prod.snd)).length n)
  | dataIdx : dataCountOf (secs.map Prod.snd) = none →
      (∃ c ∈ codesOf (secs.map Prod.snd), ∃ i ∈ c.body, UsesData i) →
      (typeIdxsOf (secs.map Prod.snd)).length = (codesOf (secs.map Prod.snd)).length →
      EndErr secs .DataIndexWithoutDataCount

theorem funcs_eq_of_not {secs : List (UInt32 × Section)} (hacc : Acceptable (secs.map Prod.snd))
    (h : ¬ ((stateOf secs).module.funcs ≠ [] ∧ ¬ (stateOf secs).encountered_code_section = true)) :
    (typeIdxsOf (secs.map Prod.snd)).length = (codesOf (secs.map Prod.snd)).length := by
  cases hc : hasCode (secs.map Prod.snd) with
  | true => exact hacc.funcs (hasCode_iff.1 hc)
  | false =>
    rw [codesOf_nil (noCode_of_false hc)]
    simp only [stateOf, hc] at h
    simpa using h

theorem final_err {secs : List (UInt32 × Section)} (hacc : Acceptable (secs.map Prod.snd))
    {r r' : R} {e : DecodeModuleError} (h : finalChecks (stateOf secs) r = (.err e, r')) :
    EndErr secs e := by
  unfold finalChecks at h
  split at h
  · rename_i h1
    obtain ⟨h1, h2⟩ := h1
    have hc : hasCode (secs.map Prod.snd) = false := by simpa [stateOf] using h2
    simp only [Dec.err, Prod.mk.injEq, Res.err.injEq] at h
    rw [← h.1, stateOf_funcs_length' (noCode_of_false hc)]
    refine .code (noCode_of_false hc) fun hn => h1 ?_
    rw [← List.length_eq_zero_iff, stateOf_funcs_length' (noCode_of_false hc), hn]
    rfl
  · rename_i h1
    have hf := funcs_eq_of_not hacc h1
    split at h
    · rename_i h2
      simp only [Dec.err, Prod.mk.injEq, Res.err.injEq] at h
      rw [← h.1]
      simp only [stateOf, assemble] at h2 ⊢
      cases hd : dataCountOf (secs.map Prod.snd) with
      | none => rw [hd] at h2; simp at h2
      | some n =>
        rw [hd] at h2
        have h2 : n.toNat ≠ (datasOf (secs.map Prod.snd)).length := of_decide_eq_true h2
        exact .dataCount hd h2 hf
    · split at h
      · rename_i h3
        simp only [Dec.err, Prod.mk.injEq, Res.err.injEq] at h
        rw [← h.1]
        refine .dataIdx ?_ (usesData_iff.1 h3.1) hf
        have := h3.2
        simpa [stateOf, assemble] using this
      · simp [Pure.pure, Dec.ok] at h

/-- How `decode_module` fails. -/
inductive ModErr (r r' : R) : DecodeModuleError → Prop
  | preamble {x} : parsePreamble r = (.err x, r') → ModErr r r' (.ParsePreamble x)
  | header {x secs bs r1} : Adv (preamble ++ bs) r r1 → BSeq BSection bs secs →
      Acceptable (secs.map Prod.snd) → decodeSectionHeader r1 = (.err x, r') →
      ModErr r r' (.DecodeSectionHeader x)
  | sect {e secs bs k size b1 r1} : BSeq BSection bs secs → Acceptable (secs.map Prod.snd) →
      BU32 b1 size → Adv (preamble ++ (bs ++ (sectionId k :: b1))) r r1 →
      SecErr secs ⟨k, size⟩ r1 r' e → ModErr r r' e
  | final {e secs bs} : avail r = preamble ++ bs → BSeq BSection bs secs →
      Acceptable (secs.map Prod.snd) → (fin r).toErr = .unexpectedEof → EndErr secs e → ModErr r r' e

theorem module_err {r r' : R} {e : DecodeModuleError} (h : decodeModule r = (.err e, r')) :
    ModErr r r' e := by
  simp only [decodeModule, Bind.bind, Dec.bind, Dec.mapErr] at h
  rcases hp : (parsePreamble r : _ × _) with ⟨res, r1⟩
  rw [hp] at h
  cases res with
  | ok u =>
    obtain ⟨_, a1, rfl⟩ := preamble_sound _ _ _ hp
    simp only at h
    rcases hl : (sectionLoop (Read.weight r + 1) ⟨Module.default, false, false⟩ r1 : _ × _) with ⟨res, r2⟩
    rw [hl] at h
    rw [← stateOf_nil] at hl
    cases res with
    | ok st =>
      obtain ⟨secs, h1, h2, rfl, h4⟩ := loop_sound _ _ _ _ _ hl Acceptable.nil
      simp only [List.nil_append] at h h2
      refine .final ?_ h1 h2 (by rw [← adv_fin a1]; exact h4) (final_err h2 h)
      rw [adv_avail a1]
    | err e' =>
      simp only [Prod.mk.injEq, Res.err.injEq] at h
      obtain ⟨rfl, rfl⟩ := h
      obtain ⟨secs, bs, r3, a3, hs, hacc, hh | hh⟩ := loop_err _ _ _ _ _ hl Acceptable.nil
      · obtain ⟨x, rfl, hx⟩ := hh
        exact .header (adv_trans a1 a3) hs (by simpa using hacc) hx
      · obtain ⟨k, size, b1, r4, a4, hb1, hd⟩ := hh
        have hacc : Acceptable (secs.map Prod.snd) := by simpa using hacc
        refine .sect hs hacc hb1 (adv_trans a1 (adv_trans a3 a4)) (section_err hacc ?_)
        simpa using hd
    | panic => simp at h
    | fuel => simp at h
  | err x =>
    simp only [Prod.mk.injEq, Res.err.injEq] at h
    obtain ⟨rfl, rfl⟩ := h
    exact .preamble hp
  | panic => simp at h
  | fuel => simp at h

/-! ### The converse: errors that do occur -/

/-- `decode_module` behind acceptable sections and the header of another one. -/
theorem module_at_section {secs : List (UInt32 × Section)} {bs b1 rest : Bytes} {k : SectionKind}
    {size : UInt32} (hb : BSeq BSection bs secs) (hacc : Acceptable (secs.map Prod.snd))
    (h1 : BU32 b1 size) {r : R} (ha : avail r = preamble ++ (bs ++ (sectionId k :: (b1 ++ rest)))) :
    ∃ r1, Adv (preamble ++ (bs ++ (sectionId k :: b1))) r r1 ∧ avail r1 = rest ∧
      (∀ e r', decodeSection ⟨k, size⟩ (stateOf secs) r1 = (.err e, r') →
        decodeModule r = (.err e, r')) := by
  obtain ⟨r1, n, a1, av1, hn, e1⟩ := module_steps hb hacc ha
  obtain ⟨r2, a2, e2⟩ := header_cons av1
  have av2 : avail r2 = b1 ++ rest := by
    have := adv_avail a2
    rw [av1] at this
    simpa using this.symm
  obtain ⟨r3, e3, a3⟩ := headerRest_runs (R := R) (k := k) h1 r2 rest av2
  refine ⟨r3, ?_, ?_, ?_⟩
  · have := adv_trans a1 (adv_trans a2 a3)
    simpa using this
  · have := adv_avail a3
    rw [av2] at this
    exact (List.append_cancel_left this).symm
  · intro e r' h
    rw [e1]
    match n, hn with
    | n + 1, _ =>
      simp only [sectionLoop, Bind.bind, Dec.bind, Dec.mapErr, e2, e3, h]

/-- `decode_module` behind acceptable sections at the end of the input. -/
theorem module_at_end {secs : List (UInt32 × Section)} {bs : Bytes} (hb : BSeq BSection bs secs)
    (hacc : Acceptable (secs.map Prod.snd)) {r : R} (ha : avail r = preamble ++ bs)
    (hf : (fin r).toErr = .unexpectedEof) :
    ∃ r1, decodeModule r = finalChecks (stateOf secs) r1 := by
  obtain ⟨r1, n, a1, av1, hn, e1⟩ := module_steps (rest := []) hb hacc (by rw [ha, List.append_nil])
  obtain ⟨r2, e2⟩ := header_nil av1
  rw [adv_fin a1, if_pos hf] at e2
  match n, hn with
  | n + 1, _ =>
    refine ⟨r2, ?_⟩
    rw [e1]
    simp only [sectionLoop, Bind.bind, Dec.bind, Dec.mapErr, e2]
    rfl

omit [LawfulRead R] in
theorem end_final {secs : List (UInt32 × Section)} {e : DecodeModuleError} (h : EndErr secs e)
    (r : R) : finalChecks (stateOf secs) r = (.err e, r) := by
  suffices h : (finalChecks (stateOf secs) : Dec R _ _) = Dec.err e by rw [h]; rfl
  unfold finalChecks
  cases h with
  | code h1 h2 =>
    have hl := stateOf_funcs_length' h1
    have hc : hasCode (secs.map Prod.snd) = false := hasCode_false h1
    simp only
    rw [if_pos, hl]
    · refine ⟨fun hn => h2 ?_, by simpa [stateOf] using hc⟩
      rw [hn] at hl
      simpa using hl.symm
  | dataCount h1 h2 h3 =>
    have hm := stateOf_module h3
    simp only
    rw [if_neg, if_pos]
    · simp only [hm, assemble, h1, Option.getD_some]
    · rw [hm]; simp only [assemble, h1]; simpa using h2
    · rintro ⟨g1, g2⟩
      have hc : hasCode (secs.map Prod.snd) = false := by simpa [stateOf] using g2
      rw [codesOf_nil (noCode_of_false hc)] at h3
      apply g1
      rw [← List.length_eq_zero_iff, stateOf_funcs_length' (noCode_of_false hc), h3]
      rfl
  | dataIdx h1 h2 h3 =>
    have hm := stateOf_module h3
    simp only
    rw [if_neg, if_neg, if_pos]
    · refine ⟨usesData_iff.2 h2, ?_⟩
      rw [hm]; simp [assemble, h1]
    · rw [hm]; simp [assemble, h1]
    · rintro ⟨g1, g2⟩
      have hc : hasCode (secs.map Prod.snd) = false := by simpa [stateOf] using g2
      rw [codesOf_nil (noCode_of_false hc)] at h2
      obtain ⟨c, hc, _⟩ := h2
      simp at hc

end Wadec
