import Verif.Proof.Module

/-! `decode_module` on two readers: independence of fragmentation, totality, and what can be
blamed for an error that more input would have changed. -/

namespace Wadec

open Wadec.Spec LawfulRead

variable {R S : Type} [LawfulRead R] [LawfulRead S] {L : Nat}

/-- The errors of the checks after the last section. -/
def FinalErr : DecodeModuleError → Prop
  | .CodeFuncEntriesLenMismatch codes _ => codes = 0
  | .DataCountDatasLenMismatch _ _ => True
  | .DataIndexWithoutDataCount => True
  | _ => False

/-- An error of `decode_module` that depends on where and how the input ended. -/
inductive Blamed (bs : Bytes) (f : End) : DecodeModuleError → Prop
  | io {e} : ErrInfo.root e = some f.toErr → Blamed bs f e
  | murky {e} : ErrInfo.murky e = true → Dangling bs → Blamed bs f e
  | custom {size got} : f = .eof → got.toNat < size.toNat →
      Blamed bs f (.SectionSizeMismatch .Custom size got)
  | final {e} : f.toErr = .unexpectedEof → FinalErr e → Blamed bs f e

theorem Blamed.append {bs : Bytes} {f : End} {e : DecodeModuleError} (h : Blamed bs f e)
    (pre : Bytes) : Blamed (pre ++ bs) f e := by
  cases h with
  | io h => exact .io h
  | murky h hD => exact .murky h (hD.append pre)
  | custom h1 h2 => exact .custom h1 h2
  | final h1 h2 => exact .final h1 h2

/-- The error half of the outcome relation. -/
def MErr {α : Type} (d' : Dec S DecodeModuleError α) (r : R) (s : S) (e : DecodeModuleError) : Prop :=
  (∃ s', d' s = (.err e, s')) ∨
  (Blamed (avail r) (fin r) e ∧ (avail s = avail r → fin s = fin r → ∃ s', d' s = (.err e, s')))

/-- Outcomes of one section on two readers, the second delivering at least as much. -/
inductive MOut {α : Type} (d' : Dec S DecodeModuleError α) (r : R) (s : S) :
    Res DecodeModuleError α × R → Prop
  | ok {v : α} {r' : R} {bs : List UInt8} {s' : S} (h1 : d' s = (.ok v, s')) (h2 : Adv bs r r')
      (h3 : Adv bs s s') : MOut d' r s (.ok v, r')
  | err {e : DecodeModuleError} {r' : R} (h : MErr d' r s e) : MOut d' r s (.err e, r')

theorem GOut.of_ok {ε α : Type} [ErrInfo ε] {k : Nat} {d' : Dec S ε α} {r r' : R} {s : S} {v : α}
    (h : GOut k d' r s (.ok v, r')) :
    ∃ bs s', k ≤ bs.length ∧ d' s = (.ok v, s') ∧ Adv bs r r' ∧ Adv bs s s' := h

theorem GOut.of_err {ε α : Type} [ErrInfo ε] {k : Nat} {d' : Dec S ε α} {r r' : R} {s : S} {e : ε}
    (h : GOut k d' r s (.err e, r')) :
    (∃ s', d' s = (.err e, s')) ∨
      (∃ mk : IoError → ε, (∀ x, ErrInfo.root (mk x) = some x) ∧ e = mk (fin r).toErr ∧
        (avail s = avail r → ∃ s', d' s = (.err (mk (fin s).toErr), s'))) ∨
      (ErrInfo.murky e = true ∧ Dangling (avail r) ∧ (avail s = avail r → ∃ s', d' s = (.err e, s'))) := h

theorem GOut.toMOut {α : Type} {k : Nat} {d' : Dec S DecodeModuleError α} {r : R} {s : S}
    {o : Res DecodeModuleError α × R} (h : GOut k d' r s o) : MOut d' r s o := by
  obtain ⟨res, r'⟩ := o
  cases res with
  | ok v => obtain ⟨bs, s', _, h1, h2, h3⟩ := h; exact .ok h1 h2 h3
  | err e =>
    refine .err ?_
    rcases h with h | ⟨mk, h1, h2, h3⟩ | ⟨h1, hD, h2⟩
    · exact .inl h
    · refine .inr ⟨.io (by rw [h2]; exact h1 _), fun ha hf => ?_⟩
      obtain ⟨s', h4⟩ := h3 ha
      exact ⟨s', by rw [h4, hf, h2]⟩
    · exact .inr ⟨.murky h1 hD, fun ha _ => h2 ha⟩
  | panic => exact h.elim
  | fuel => exact h.elim

theorem prefix_of_adv {bs : List UInt8} {r r' : R} {s s' : S} (h : avail r <+: avail s)
    (ha : Adv bs r r') (ha' : Adv bs s s') : avail r' <+: avail s' := by
  rw [adv_avail ha, adv_avail ha'] at h
  exact (List.prefix_append_right_inj bs).1 h

/-- The contents of a custom section after its name. -/
theorem custom_spec {nm : Str} {r r1 : Take R} {b : List UInt8} (hn : decodeName r = (.ok nm, r1))
    (a : Adv b r r1) :
    (fin r = .eof → ∃ r2, decodeSectionCustom r = (.ok ⟨nm, avail r1⟩, r2) ∧
      r2.limit = r1.limit - (avail r1).length ∧ (r2.limit = 0 → Adv (b ++ avail r1) r r2)) ∧
    (∀ e, fin r = .fail e → ∃ r2, decodeSectionCustom r = (.err (.Io e), r2)) := by
  have hf := adv_fin a
  constructor
  · intro h
    obtain ⟨r2, h2, h3, h4⟩ := readToEndLoop_take (Read.weight r1 + 1) [] r1 (by omega) (by rw [hf, h])
    refine ⟨r2, ?_, h3, fun h0 => adv_trans a (h4 h0)⟩
    simp only [List.nil_append] at h2
    simp only [decodeSectionCustom, Bind.bind, Dec.bind, Dec.mapErr, hn, readToEnd, h2]
    rfl
  · intro e h
    obtain ⟨r2, h2⟩ := (readToEndLoop_spec (Read.weight r1 + 1) [] r1 (by omega)).2 e (by rw [hf, h])
    exact ⟨r2, by simp only [decodeSectionCustom, Bind.bind, Dec.bind, Dec.mapErr, hn, readToEnd, h2]⟩

theorem custom_name_err {r r1 : Take R} {e : DecodeNameError} (hn : decodeName r = (.err e, r1)) :
    decodeSectionCustom r = (.err (.DecodeName e), r1) := by
  simp only [decodeSectionCustom, Bind.bind, Dec.bind, Dec.mapErr, hn]

/-- What the section loop does with a custom section, as a decoder on the unlimited reader. -/
def customStep (h : SectionHeader) (st : LoopState) : Dec R DecodeModuleError LoopState := do
  let (st, limit) ← Dec.withTake h.size.toNat (decodeSectionBody .Custom st)
  if limit ≠ 0 then
    Dec.err (.SectionSizeMismatch h.kind h.size (UInt64.ofNat (h.size.toNat - limit)))
  else pure (finishSection h st)

theorem customStep_ok {h : SectionHeader} {st : LoopState} {r : R} {c : CustomSection} {t : Take R}
    (hc : decodeSectionCustom ({ limit := h.size.toNat, inner := r } : Take R) = (.ok c, t)) :
    customStep h st r = if t.limit ≠ 0 then
      (.err (.SectionSizeMismatch h.kind h.size (UInt64.ofNat (h.size.toNat - t.limit))), t.inner)
      else (.ok (finishSection h { st with module :=
        { st.module with custom_sections := st.module.custom_sections ++ [c] } }), t.inner) := by
  simp only [customStep, decodeSectionBody, Bind.bind, Dec.bind, Dec.withTake, Dec.mapErr, hc,
    Pure.pure, Dec.ok]
  split <;> rfl

theorem customStep_err {h : SectionHeader} {st : LoopState} {r : R} {e : DecodeCustomSectionError}
    {t : Take R}
    (hc : decodeSectionCustom ({ limit := h.size.toNat, inner := r } : Take R) = (.err e, t)) :
    customStep h st r = (.err (.DecodeCustomSection e), t.inner) := by
  simp only [customStep, decodeSectionBody, Bind.bind, Dec.bind, Dec.withTake, Dec.mapErr, hc]

theorem u32_lt (n : UInt32) : n.toNat < 2 ^ 32 := n.toNat_lt

theorem got_toNat {n : UInt32} {k : Nat} :
    (UInt64.ofNat (n.toNat - k)).toNat = n.toNat - k := by
  have := n.toNat_lt
  rw [UInt64.toNat_ofNat']
  apply Nat.mod_eq_of_lt
  omega

theorem customStep_m (size : UInt32) (st : LoopState) {r : R} {s : S} (hp : avail r <+: avail s) :
    MOut (customStep ⟨.Custom, size⟩ st) r s (customStep ⟨.Custom, size⟩ st r) := by
  have hp' : avail ({ limit := size.toNat, inner := r } : Take R) <+:
      avail ({ limit := size.toNat, inner := s } : Take S) := by
    obtain ⟨t, ht⟩ := hp
    simp only [avail]
    rw [← ht, List.take_append]
    exact List.prefix_append _ _
  have hg := name_g (R := Take R) (S := Take S) (L := (avail r).length)
    { limit := size.toNat, inner := r } { limit := size.toNat, inner := s }
    (by simp [avail]; omega) hp'
  rcases hn : (decodeName ({ limit := size.toNat, inner := r } : Take R) : _ × _) with ⟨res, r1⟩
  rw [hn] at hg
  by_cases hl : size.toNat ≤ (avail r).length
  · -- the whole section is available: both readers see the same limited reader
    have hfr : fin ({ limit := size.toNat, inner := r } : Take R) = .eof := by simp [fin, hl]
    have hls := hp.length_le
    have hfs : fin ({ limit := size.toNat, inner := s } : Take S) = .eof := by
      simp only [fin]; rw [if_pos (by omega)]
    have heq : avail ({ limit := size.toNat, inner := s } : Take S) =
        avail ({ limit := size.toNat, inner := r } : Take R) := by
      obtain ⟨t', ht⟩ := hp
      simp only [avail]
      rw [← ht, List.take_append_of_le_length hl]
    have hlen : (avail ({ limit := size.toNat, inner := r } : Take R)).length = size.toNat := by
      simp [avail, hl]
    cases res with
    | ok nm =>
      obtain ⟨bs, s1, _, hs, ha, ha'⟩ := GOut.of_ok hg
      obtain ⟨r2, e2, l2, a2⟩ := (custom_spec hn ha).1 hfr
      obtain ⟨s2, e2', l2', a2'⟩ := (custom_spec hs ha').1 hfs
      have hav : avail s1 = avail r1 := by
        rw [adv_avail ha, adv_avail ha'] at heq
        simpa using heq
      have h1 := ha.1
      have h1' := ha'.1
      have h2 := congrArg List.length (adv_avail ha)
      rw [hlen, List.length_append] at h2
      simp only at h1 h1'
      have hz : r2.limit = 0 := by omega
      have hz' : s2.limit = 0 := by rw [l2', hav]; omega
      rw [customStep_ok (h := ⟨.Custom, size⟩) e2, hz]
      refine .ok (s' := s2.inner) ?_ (a2 hz).2 ?_
      · rw [customStep_ok (h := ⟨.Custom, size⟩) e2', hz', hav]; rfl
      · rw [← hav]; exact (a2' hz').2
    | err e =>
      rw [customStep_err (h := ⟨.Custom, size⟩) (custom_name_err hn)]
      refine .err (.inl ?_)
      rcases GOut.of_err hg with ⟨s', h⟩ | ⟨mk, h1, h2, h3⟩ | ⟨h1, h2⟩
      · exact ⟨_, customStep_err (h := ⟨.Custom, size⟩) (custom_name_err h)⟩
      · obtain ⟨s', h⟩ := h3 heq
        rw [hfs] at h
        rw [h2, hfr]
        exact ⟨_, customStep_err (h := ⟨.Custom, size⟩) (custom_name_err h)⟩
      · rw [Clear.clear] at h1; cases h1
    | panic => exact hg.elim
    | fuel => exact hg.elim
  · -- the input ends inside the section
    have hfr : fin ({ limit := size.toNat, inner := r } : Take R) = fin r := by simp [fin, hl]
    have hav0 : avail ({ limit := size.toNat, inner := r } : Take R) = avail r := by
      simp only [avail]; rw [List.take_of_length_le (by omega)]
    have hsame : avail s = avail r → fin s = fin r →
        avail ({ limit := size.toNat, inner := s } : Take S) =
          avail ({ limit := size.toNat, inner := r } : Take R) ∧
        fin ({ limit := size.toNat, inner := s } : Take S) = fin r := by
      intro h1 h2
      refine ⟨by simp only [avail]; rw [h1], ?_⟩
      simp only [fin]; rw [if_neg (by rw [h1]; exact hl)]; exact h2
    cases res with
    | ok nm =>
      obtain ⟨bs, s1, _, hs, ha, ha'⟩ := GOut.of_ok hg
      have h1 := ha.1
      have h2 := congrArg List.length (adv_avail ha)
      rw [hav0, List.length_append] at h2
      simp only at h1
      cases hf : fin r with
      | eof =>
        obtain ⟨r2, e2, l2, _⟩ := (custom_spec hn ha).1 (by rw [hfr, hf])
        rw [customStep_ok (h := ⟨.Custom, size⟩) e2, if_pos (by omega)]
        refine .err <| .inr ⟨.custom hf ?_, fun hh1 hh2 => ?_⟩
        · simp only
          rw [got_toNat]; omega
        · obtain ⟨q1, q2⟩ := hsame hh1 hh2
          obtain ⟨s2, e2', l2', _⟩ := (custom_spec hs ha').1 (by rw [q2, hf])
          have hav : avail s1 = avail r1 := by
            rw [adv_avail ha, adv_avail ha'] at q1
            simpa using q1
          have h1' := ha'.1
          simp only at h1'
          have : s2.limit = r2.limit := by rw [l2', l2, hav]; omega
          exact ⟨_, by rw [customStep_ok (h := ⟨.Custom, size⟩) e2', this, if_pos (by omega)]⟩
      | fail e =>
        obtain ⟨r2, e2⟩ := (custom_spec hn ha).2 e (by rw [hfr, hf])
        rw [customStep_err (h := ⟨.Custom, size⟩) e2]
        refine .err <| .inr ⟨.io (by rw [hf]; rfl), fun hh1 hh2 => ?_⟩
        obtain ⟨q1, q2⟩ := hsame hh1 hh2
        obtain ⟨s2, e2'⟩ := (custom_spec hs ha').2 e (by rw [q2, hf])
        exact ⟨_, customStep_err (h := ⟨.Custom, size⟩) e2'⟩
    | err e =>
      rw [customStep_err (h := ⟨.Custom, size⟩) (custom_name_err hn)]
      refine .err ?_
      rcases GOut.of_err hg with ⟨s', h⟩ | ⟨mk, h1, h2, h3⟩ | ⟨h1, h2⟩
      · exact .inl ⟨_, customStep_err (h := ⟨.Custom, size⟩) (custom_name_err h)⟩
      · refine .inr ⟨.io ?_, fun hh1 hh2 => ?_⟩
        · rw [h2, hfr]; exact h1 _
        · obtain ⟨q1, q2⟩ := hsame hh1 hh2
          obtain ⟨s', h⟩ := h3 q1
          rw [q2] at h
          rw [h2, hfr]
          exact ⟨_, customStep_err (h := ⟨.Custom, size⟩) (custom_name_err h)⟩
      · rw [Clear.clear] at h1; cases h1
    | panic => exact hg.elim
    | fuel => exact hg.elim

omit [LawfulRead R] [LawfulRead S] in
/-- The order check does not look at the reader. -/
theorem validate_cases (m : Module) (k : SectionKind) :
    ((m.validateSectionKindExpected k : Dec R _ _) = pure () ∧
      (m.validateSectionKindExpected k : Dec S _ _) = pure ()) ∨
    (∃ e, (m.validateSectionKindExpected k : Dec R _ _) = Dec.err e ∧
      (m.validateSectionKindExpected k : Dec S _ _) = Dec.err e) := by
  unfold Module.validateSectionKindExpected
  split
  · exact .inl ⟨rfl, rfl⟩
  · split
    · exact .inl ⟨rfl, rfl⟩
    · split
      · exact .inr ⟨_, rfl, rfl⟩
      · split
        · exact .inr ⟨_, rfl, rfl⟩
        · exact .inl ⟨rfl, rfl⟩

theorem section_m (h : SectionHeader) (st : LoopState) {r : R} {s : S} (hp : avail r <+: avail s) :
    MOut (decodeSection h st) r s (decodeSection h st r) := by
  rcases validate_cases (R := R) (S := S) st.module h.kind with ⟨v1, v2⟩ | ⟨e, v1, v2⟩
  · by_cases hk : h.kind = .Custom
    · rw [section_eq h st v1, section_eq h st v2, hk]
      obtain ⟨k, size⟩ := h
      simp only at hk
      subst hk
      exact customStep_m size st hp
    · rw [section_eq h st v1, section_eq h st v2]
      refine GOut.toMOut (k := 0) ((G.bind0 (L := (avail r).length) (G.withTake (body_g hk st)) ?_) r s
        (Nat.le_refl _) hp)
      intro x
      exact G.ite (fun _ => G.err) fun _ => G.pure
  · have e1 : decodeSection h st r = (.err e, r) := by simp only [decodeSection, v1]; rfl
    rw [e1]
    exact .err (.inl ⟨s, by simp only [decodeSection, v2]; rfl⟩)

/-- Outcomes of the section loop, and of `decode_module`, on two readers. -/
inductive LOut {α : Type} (d' : Dec S DecodeModuleError α) (r : R) (s : S) :
    Res DecodeModuleError α × R → Prop
  | ok {v : α} {r' : R} (h1 : (fin r).toErr = .unexpectedEof)
      (h2 : avail s = avail r → fin s = fin r → ∃ s', d' s = (.ok v, s')) : LOut d' r s (.ok v, r')
  | err {e : DecodeModuleError} {r' : R} (h : MErr d' r s e) : LOut d' r s (.err e, r')

theorem MErr.step {α : Type} {d d2 : Dec S DecodeModuleError α} {r r1 : R} {s s1 : S}
    {e : DecodeModuleError} {bs : List UInt8} (h : MErr d2 r1 s1 e) (a : Adv bs r r1) (a' : Adv bs s s1)
    (he : d s = d2 s1) : MErr d r s e := by
  rcases h with ⟨s', h⟩ | ⟨h1, h2⟩
  · exact .inl ⟨s', by rw [he, h]⟩
  · rw [adv_fin a] at h1
    refine .inr ⟨(adv_avail a) ▸ h1.append bs, fun q1 q2 => ?_⟩
    rw [he]
    refine h2 ?_ (by rw [adv_fin a, adv_fin a', q2])
    rw [adv_avail a, adv_avail a'] at q1
    simpa using q1

theorem LOut.step {α : Type} {d d2 : Dec S DecodeModuleError α} {r r1 : R} {s s1 : S}
    {o : Res DecodeModuleError α × R} {bs : List UInt8} (h : LOut d2 r1 s1 o) (a : Adv bs r r1)
    (a' : Adv bs s s1) (he : d s = d2 s1) : LOut d r s o := by
  cases h with
  | ok h1 h2 =>
    refine .ok (by rw [← adv_fin a]; exact h1) fun q1 q2 => ?_
    rw [he]
    refine h2 ?_ (by rw [adv_fin a, adv_fin a', q2])
    rw [adv_avail a, adv_avail a'] at q1
    simpa using q1
  | err h => exact .err (h.step a a' he)

theorem loop_m : ∀ (n n' : Nat) (st : LoopState) (r : R) (s : S), (avail r).length < n →
    (avail s).length < n' → avail r <+: avail s →
    LOut (sectionLoop n' st) r s (sectionLoop n st r) := by
  intro n
  induction n with
  | zero => intro n' st r s h; omega
  | succ n ih =>
    intro n' st r s hn hn' hp
    obtain ⟨n', rfl⟩ : ∃ m, n' = m + 1 := ⟨n' - 1, by omega⟩
    cases hav : avail r with
    | nil =>
      obtain ⟨r1, e1⟩ := header_nil hav
      have hs : avail s = [] → fin s = fin r → ∃ s1, decodeSectionHeader s =
          (if (fin r).toErr = .unexpectedEof then .ok none
            else .err (.ReadSectionIdByte (fin r).toErr), s1) := by
        intro q1 q2
        obtain ⟨s1, h⟩ := header_nil q1
        rw [q2] at h
        exact ⟨s1, h⟩
      by_cases hf : (fin r).toErr = .unexpectedEof
      · rw [if_pos hf] at e1 hs
        have e : sectionLoop (n + 1) st r = (.ok st, r1) := by
          simp only [sectionLoop, Bind.bind, Dec.bind, Dec.mapErr, e1]; rfl
        rw [e]
        refine .ok hf fun q1 q2 => ?_
        obtain ⟨s1, h⟩ := hs (by rw [q1, hav]) q2
        exact ⟨s1, by simp only [sectionLoop, Bind.bind, Dec.bind, Dec.mapErr, h]; rfl⟩
      · rw [if_neg hf] at e1 hs
        have e : sectionLoop (n + 1) st r =
            (.err (.DecodeSectionHeader (.ReadSectionIdByte (fin r).toErr)), r1) := by
          simp only [sectionLoop, Bind.bind, Dec.bind, Dec.mapErr, e1]
        rw [e]
        refine .err (.inr ⟨.io rfl, fun q1 q2 => ?_⟩)
        obtain ⟨s1, h⟩ := hs (by rw [q1, hav]) q2
        exact ⟨s1, by simp only [sectionLoop, Bind.bind, Dec.bind, Dec.mapErr, h]⟩
    | cons b rest =>
      obtain ⟨r1, a1, e1⟩ := header_cons hav
      obtain ⟨rest', hs⟩ : ∃ rest', avail s = b :: rest' := by
        obtain ⟨t, ht⟩ := hp
        rw [hav] at ht
        exact ⟨_, ht.symm⟩
      obtain ⟨s1, a1', e1'⟩ := header_cons hs
      have hp1 := prefix_of_adv hp a1 a1'
      have hg := headerRest_g (R := R) (S := S) (id := b) r1 s1 (Nat.le_refl _) hp1
      have hl1 := congrArg List.length (adv_avail a1)
      have hl1' := congrArg List.length (adv_avail a1')
      simp only [List.length_append, List.length_cons, List.length_nil] at hl1 hl1'
      rcases hh : (sectionHeaderRest b r1 : _ × _) with ⟨res, r2⟩
      rw [hh] at hg
      cases res with
      | ok o =>
        obtain ⟨bs, s2, _, hs2, a2, a2'⟩ := GOut.of_ok hg
        obtain ⟨_, _, k, size, rfl, _⟩ := headerRest_sound _ _ _ hh
        have hp2 := prefix_of_adv hp1 a2 a2'
        have hl2 := congrArg List.length (adv_avail a2)
        have hl2' := congrArg List.length (adv_avail a2')
        simp only [List.length_append] at hl2 hl2'
        have hm := section_m ⟨k, size⟩ st hp2
        have er : sectionLoop (n + 1) st r = (do
            let st ← decodeSection ⟨k, size⟩ st
            sectionLoop n st : Dec R _ _) r2 := by
          simp only [sectionLoop, Bind.bind, Dec.bind, Dec.mapErr, e1, hh]
        have es : sectionLoop (n' + 1) st s = (do
            let st ← decodeSection ⟨k, size⟩ st
            sectionLoop n' st : Dec S _ _) s2 := by
          simp only [sectionLoop, Bind.bind, Dec.bind, Dec.mapErr, e1', hs2]
        rw [er]
        refine LOut.step ?_ (adv_trans a1 a2) (adv_trans a1' a2') es
        rcases hd : (decodeSection ⟨k, size⟩ st r2 : _ × _) with ⟨res, r3⟩
        rw [hd] at hm
        cases hm with
        | ok h1 a3 a3' =>
          rename_i st' bs3 s3
          have hp3 := prefix_of_adv hp2 a3 a3'
          have hl3 := congrArg List.length (adv_avail a3)
          have hl3' := congrArg List.length (adv_avail a3')
          simp only [List.length_append] at hl3 hl3'
          have hi := ih n' st' r3 s3 (by omega) (by omega) hp3
          have : (do let st ← decodeSection ⟨k, size⟩ st
                     sectionLoop n st : Dec R _ _) r2 = sectionLoop n st' r3 := by
            simp only [Bind.bind, Dec.bind, hd]
          rw [this]
          exact hi.step a3 a3' (by simp only [Bind.bind, Dec.bind, h1])
        | err h =>
          rename_i e
          have : (do let st ← decodeSection ⟨k, size⟩ st
                     sectionLoop n st : Dec R _ _) r2 = (.err e, r3) := by
            simp only [Bind.bind, Dec.bind, hd]
          rw [this]
          refine .err ?_
          rcases h with ⟨s', h⟩ | ⟨h1, h2⟩
          · exact .inl ⟨s', by simp only [Bind.bind, Dec.bind, h]⟩
          · refine .inr ⟨h1, fun q1 q2 => ?_⟩
            obtain ⟨s', h⟩ := h2 q1 q2
            exact ⟨s', by simp only [Bind.bind, Dec.bind, h]⟩
      | err e =>
        have er : sectionLoop (n + 1) st r = (.err (.DecodeSectionHeader e), r2) := by
          simp only [sectionLoop, Bind.bind, Dec.bind, Dec.mapErr, e1, hh]
        have es : ∀ e s2, sectionHeaderRest b s1 = (.err e, s2) →
            sectionLoop (n' + 1) st s = (.err (.DecodeSectionHeader e), s2) := by
          intro e s2 h
          simp only [sectionLoop, Bind.bind, Dec.bind, Dec.mapErr, e1', h]
        have hav1 : avail s = avail r → avail s1 = avail r1 := by
          intro q
          rw [adv_avail a1, adv_avail a1'] at q
          simpa using q
        rw [er]
        refine .err ?_
        rcases GOut.of_err hg with ⟨s', h⟩ | ⟨mk, h1, h2, h3⟩ | ⟨h1, h2⟩
        · exact .inl ⟨s', es _ _ h⟩
        · rw [adv_fin a1] at h2
          refine .inr ⟨.io (by rw [h2]; exact h1 _), fun q1 q2 => ?_⟩
          obtain ⟨s', h⟩ := h3 (hav1 q1)
          rw [adv_fin a1', q2, ← h2] at h
          exact ⟨s', es _ _ h⟩
        · rw [Clear.clear] at h1; cases h1
      | panic => exact hg.elim
      | fuel => exact hg.elim

omit [LawfulRead R] [LawfulRead S] in
theorem final_cases (st : LoopState) :
    (∃ m, (finalChecks st : Dec R _ _) = pure m ∧ (finalChecks st : Dec S _ _) = pure m) ∨
    (∃ e, (finalChecks st : Dec R _ _) = Dec.err e ∧ (finalChecks st : Dec S _ _) = Dec.err e ∧
      FinalErr e) := by
  unfold finalChecks
  simp only
  split
  · exact .inr ⟨_, rfl, rfl, rfl⟩
  · split
    · exact .inr ⟨_, rfl, rfl, trivial⟩
    · split
      · exact .inr ⟨_, rfl, rfl, trivial⟩
      · exact .inl ⟨_, rfl, rfl⟩

theorem bind_final_m {d : Dec R DecodeModuleError LoopState} {d' : Dec S DecodeModuleError LoopState}
    {r : R} {s : S} (h : LOut d' r s (d r)) :
    LOut (d' >>= finalChecks) r s ((d >>= finalChecks) r) := by
  rcases hd : d r with ⟨res, r1⟩
  rw [hd] at h
  cases h with
  | ok h1 h2 =>
    rename_i st
    have e : (d >>= finalChecks) r = finalChecks st r1 := by simp only [Bind.bind, Dec.bind, hd]
    rw [e]
    rcases final_cases (R := R) (S := S) st with ⟨m, f1, f2⟩ | ⟨x, f1, f2, hx⟩
    · rw [f1]
      refine .ok h1 fun q1 q2 => ?_
      obtain ⟨s', h⟩ := h2 q1 q2
      exact ⟨s', by simp only [Bind.bind, Dec.bind, h, f2]; rfl⟩
    · rw [f1]
      refine .err (.inr ⟨.final h1 hx, fun q1 q2 => ?_⟩)
      obtain ⟨s', h⟩ := h2 q1 q2
      exact ⟨s', by simp only [Bind.bind, Dec.bind, h, f2]; rfl⟩
  | err h =>
    rename_i e
    have e : (d >>= finalChecks) r = (.err e, r1) := by simp only [Bind.bind, Dec.bind, hd]
    rw [e]
    refine .err ?_
    rcases h with ⟨s', h⟩ | ⟨h1, h2⟩
    · exact .inl ⟨s', by simp only [Bind.bind, Dec.bind, h]⟩
    · refine .inr ⟨h1, fun q1 q2 => ?_⟩
      obtain ⟨s', h⟩ := h2 q1 q2
      exact ⟨s', by simp only [Bind.bind, Dec.bind, h]⟩

/-- The outcomes of `decode_module` on two readers, the second delivering at least as much. -/
theorem module_m (r : R) (s : S) (hp : avail r <+: avail s) :
    LOut decodeModule r s (decodeModule r) := by
  have hg := preamble_g (R := R) (S := S) r s (Nat.le_refl _) hp
  rcases hh : (parsePreamble r : _ × _) with ⟨res, r1⟩
  rw [hh] at hg
  have er : ∀ (x : Unit) r1, parsePreamble r = (.ok x, r1) → decodeModule r =
      (sectionLoop (Read.weight r + 1) ⟨Module.default, false, false⟩ >>= finalChecks) r1 := by
    intro x r1 h
    simp only [decodeModule, Bind.bind, Dec.bind, Dec.mapErr, h]
  have es : ∀ (x : Unit) s1, parsePreamble s = (.ok x, s1) → decodeModule s =
      (sectionLoop (Read.weight s + 1) ⟨Module.default, false, false⟩ >>= finalChecks) s1 := by
    intro x r1 h
    simp only [decodeModule, Bind.bind, Dec.bind, Dec.mapErr, h]
  have es' : ∀ e s1, parsePreamble s = (.err e, s1) → decodeModule s = (.err (.ParsePreamble e), s1) := by
    intro x r1 h
    simp only [decodeModule, Bind.bind, Dec.bind, Dec.mapErr, h]
  cases res with
  | ok x =>
    obtain ⟨bs, s1, _, hs, a, a'⟩ := GOut.of_ok hg
    rw [er x r1 hh]
    have hl := congrArg List.length (adv_avail a)
    have hl' := congrArg List.length (adv_avail a')
    simp only [List.length_append] at hl hl'
    have hw := avail_le r
    have hw' := avail_le s
    refine LOut.step (bind_final_m (loop_m _ (Read.weight s + 1) _ r1 s1 (by omega) (by omega)
      (prefix_of_adv hp a a'))) a a' (es x s1 hs)
  | err e =>
    have e0 : decodeModule r = (.err (.ParsePreamble e), r1) := by
      simp only [decodeModule, Bind.bind, Dec.bind, Dec.mapErr, hh]
    rw [e0]
    refine .err ?_
    rcases GOut.of_err hg with ⟨s', h⟩ | ⟨mk, h1, h2, h3⟩ | ⟨h1, h2⟩
    · exact .inl ⟨s', es' _ _ h⟩
    · refine .inr ⟨.io (by rw [h2]; exact h1 _), fun q1 q2 => ?_⟩
      obtain ⟨s', h⟩ := h3 q1
      rw [q2, ← h2] at h
      exact ⟨s', es' _ _ h⟩
    · rw [Clear.clear] at h1; cases h1
  | panic => exact hg.elim
  | fuel => exact hg.elim

end Wadec
