import Verif.Proof.Place
import Verif.Props.Sample

/-! C50–C52: errors name the place where decoding failed. -/

namespace Wadec

open LawfulRead Spec

section
variable {R : Type} [LawfulRead R]

theorem inner_place {r r' : R} {e : DecodeModuleError} {k : SectionKind}
    (h : decodeModule r = (.err e, r')) (hk : e.inner = some k) :
    ∃ secs size r1 t, AtSection (avail r) (secs.map Prod.snd) k size (avail r1) ∧
      MayFollow (secs.map Prod.snd) k ∧ fin r1 = fin r ∧
      decodeSectionBody k (stateOf secs) ({ limit := size.toNat, inner := r1 } : Take R) =
        (.err e, t) := by
  cases module_err h with
  | preamble => simp [DecodeModuleError.inner] at hk
  | header => simp [DecodeModuleError.inner] at hk
  | @sect _ secs bs k' size b1 r1 hb hacc h1 a he =>
    have hat : AtSection (avail r) (secs.map Prod.snd) k' size (avail r1) := by
      have := AtSection.mk (rest := avail r1) (k := k') hb hacc h1
      rw [adv_avail a]
      simpa using this
    cases he with
    | duplicate => simp [DecodeModuleError.inner] at hk
    | order => simp [DecodeModuleError.inner] at hk
    | @body _ t ht ho hd =>
      simp only at ho hd
      have : k' = k := by
        cases body_err hd with
        | inner hi => rw [hi] at hk; exact Option.some.inj hk
        | code => simp [DecodeModuleError.inner] at hk
        | data => simp [DecodeModuleError.inner] at hk
      subst this
      obtain ⟨s, hs⟩ := exists_kind k'
      refine ⟨secs, size, r1, t, hat, ?_, adv_fin a, hd⟩
      have := mayFollow_iff.2 (ho s hs)
      rwa [hs] at this
    | size => simp [DecodeModuleError.inner] at hk
    | customSize => simp [DecodeModuleError.inner] at hk
  | final _ _ _ _ he => cases he <;> simp [DecodeModuleError.inner] at hk

theorem body_place {r : R} {secs : List Section} {k : SectionKind} {size : UInt32} {rest : Bytes}
    (hat : AtSection (avail r) secs k size rest) (hm : MayFollow secs k) :
    ∃ st r1, avail r1 = rest ∧ fin r1 = fin r ∧
      ∀ e t, decodeSectionBody k st ({ limit := size.toNat, inner := r1 } : Take R) = (.err e, t) →
        ∃ r', decodeModule r = (.err e, r') := by
  obtain ⟨secs', r1, rfl, hacc, hav, hfin, he⟩ := at_section hat
  refine ⟨stateOf secs', r1, hav, hfin, fun e t hd => ?_⟩
  obtain ⟨s, hs⟩ := exists_kind k
  rcases validate_kind (R := R) k (sorted_iff.2 hacc.order) with ⟨_, hv⟩ | ⟨hn, _⟩
  · refine ⟨t.inner, he _ _ ?_⟩
    rw [section_eq ⟨k, size⟩ _ hv]
    simp only [Bind.bind, Dec.bind, Dec.withTake, hd]
  · rw [← hs] at hm
    exact absurd (mayFollow_iff.1 hm) (hn s hs)

theorem avail_take (n : Nat) (r : R) :
    avail ({ limit := n, inner := r } : Take R) = (avail r).take n := rfl

theorem body_total {k : SectionKind} (hk : k ≠ .Custom) (st : LoopState) :
    Total (decodeSectionBody k st : Dec R _ _) := Total.of_g fun _ => body_g hk st

/-- C50: an input is rejected with an error of the decoder of the (non-custom) section kind `k`
exactly when, after sections that may open a module, a section of kind `k` begins that may stand
there, and no contents of such a section start its bytes. -/
theorem c50_section {r : R} {k : SectionKind} (hk : k ≠ .Custom) :
    (∃ e r', decodeModule r = (.err e, r') ∧ e.inner = some k) ↔
    ∃ secs size rest, AtSection (avail r) secs k size rest ∧ MayFollow secs k ∧
      NoStart (fun b => ∃ s, s.kind = k ∧ BContents b s) (rest.take size.toNat) := by
  constructor
  · rintro ⟨e, r', h, hi⟩
    obtain ⟨secs, size, r1, t, hat, hm, _, hd⟩ := inner_place h hi
    refine ⟨_, _, _, hat, hm, ?_⟩
    rintro p ⟨s, rfl, hc⟩ ⟨q, hq⟩
    rw [← avail_take] at hq
    cases s with
    | code cs =>
      cases hc with
      | code hl =>
        obtain ⟨ds, hds, _⟩ := list_unmap Code.toEntry (fun _ _ h => BCode.toBCodeD h) hl
        obtain ⟨t1, h1, _⟩ := list_runs (fun _ _ => code_runs (R := Take R)) hds _ _ hq.symm
        rcases code_failed hd with ⟨e0, h0, _⟩ | h0
        · rw [h1] at h0; cases h0
        · rw [h0] at hi; cases hi
    | data ds =>
      cases hc with
      | data hl =>
        obtain ⟨t1, h1, _⟩ := list_runs (fun _ _ => data_runs (R := Take R)) hl _ _ hq.symm
        rcases data_failed hd with ⟨e0, h0, _⟩ | h0
        · rw [h1] at h0; cases h0
        · rw [h0] at hi; cases hi
    | _ =>
      obtain ⟨t1, h1, _⟩ := body_runs (R := Take R) (st := stateOf secs) hk hc trivial _ _ hq.symm
      rw [h1] at hd
      cases hd
  · rintro ⟨secs, size, rest, hat, hm, hn⟩
    obtain ⟨st, r1, hav, _, he⟩ := body_place hat hm
    have hav' := avail_take size.toNat r1
    rw [hav] at hav'
    rcases body_total hk st ({ limit := size.toNat, inner := r1 } : Take R) with ⟨v, t, h⟩ | ⟨e, t, h⟩
    · obtain ⟨bs, a, s, hs, hb, _⟩ := body_sound hk _ _ _ _ h
      exact absurd ⟨avail t, by rw [← hav', adv_avail a]⟩ (hn bs ⟨s, hs, hb⟩)
    · obtain ⟨r', hr⟩ := he _ _ h
      refine ⟨e, r', hr, ?_⟩
      cases body_err h with
      | inner hi => exact hi
      | @code cs bs hk a hb =>
        subst hk
        exact absurd ⟨avail t, by rw [← hav', adv_avail a]⟩ (hn bs ⟨_, rfl, hb⟩)
      | @data ds bs n hk a hb =>
        subst hk
        exact absurd ⟨avail t, by rw [← hav', adv_avail a]⟩ (hn bs ⟨_, rfl, hb⟩)

/-- C50, custom sections: no name starts the section, or the reader fails before the section has
been read. -/
theorem c50_custom {r : R} :
    (∃ e r', decodeModule r = (.err e, r') ∧ e.inner = some .Custom) ↔
    ∃ secs size rest, AtSection (avail r) secs .Custom size rest ∧
      (NoStart (fun b => ∃ nm, BName b nm) (rest.take size.toNat) ∨
       (rest.length < size.toNat ∧ ∃ x, fin r = .fail x)) := by
  have hn : Exact (decodeName : Dec (Take R) _ _) BName :=
    ⟨name_sound, fun _ _ => name_runs, Total.of_g fun _ => name_g⟩
  constructor
  · rintro ⟨e, r', h, hi⟩
    obtain ⟨secs, size, r1, t, hat, _, hf, hd⟩ := inner_place h hi
    refine ⟨_, _, _, hat, ?_⟩
    obtain ⟨e0, h0, rfl⟩ := bind_pure_err hd
    rcases hn.total ({ limit := size.toNat, inner := r1 } : Take R) with ⟨nm, t1, h1⟩ | ⟨e1, t1, h1⟩
    · right
      obtain ⟨b, a, hb⟩ := name_sound _ _ _ h1
      cases hft : fin ({ limit := size.toNat, inner := r1 } : Take R) with
      | eof =>
        obtain ⟨t2, h2, _⟩ := (custom_spec h1 a).1 hft
        rw [h0] at h2
        cases h2
      | fail x =>
        simp only [fin] at hft
        split at hft
        · cases hft
        · rename_i hl
          exact ⟨by omega, x, by rw [← hf, hft]⟩
    · left
      have := (hn.err_iff _).1 ⟨_, _, h1⟩
      rwa [avail_take] at this
  · rintro ⟨secs, size, rest, hat, hc⟩
    have hm : MayFollow secs .Custom := by
      have h2 := hat
      generalize avail r = inp at h2
      cases h2 with
      | mk _ hacc _ => simpa [MayFollow] using hacc.order
    obtain ⟨st, r1, hav, hf, he⟩ := body_place hat hm
    suffices hx : ∃ e t, decodeSectionCustom ({ limit := size.toNat, inner := r1 } : Take R) = (.err e, t) by
      obtain ⟨e, t, hx⟩ := hx
      obtain ⟨r', hr⟩ := he (.DecodeCustomSection e) t (by
        simp only [decodeSectionBody, Bind.bind, Dec.bind, Dec.mapErr, hx])
      exact ⟨_, r', hr, rfl⟩
    rcases hn.total ({ limit := size.toNat, inner := r1 } : Take R) with ⟨nm, t1, h1⟩ | ⟨e1, t1, h1⟩
    · obtain ⟨b, a, hb⟩ := name_sound _ _ _ h1
      rcases hc with hc | ⟨hl, x, hx⟩
      · refine absurd ⟨avail t1, ?_⟩ (hc b ⟨nm, hb⟩)
        rw [← hav, ← avail_take, adv_avail a]
      · have hft : fin ({ limit := size.toNat, inner := r1 } : Take R) = .fail x := by
          simp only [fin]
          rw [if_neg (by rw [hav]; omega), hf, hx]
        obtain ⟨t2, h2⟩ := (custom_spec h1 a).2 x hft
        exact ⟨_, _, h2⟩
    · exact ⟨_, _, custom_name_err h1⟩

theorem entries_of {k : SectionKind} {α : Type} {B : Bytes → α → Prop}
    (h : ∀ b, IsEntry k b ↔ ∃ x, B b x) {bs : Bytes} {xs : List α} (hb : BSeq B bs xs) :
    Entries k bs xs.length := by
  induction hb with
  | nil => exact .nil
  | cons hx _ ih => exact .cons ((h _).2 ⟨_, hx⟩) ih

theorem entries_to {k : SectionKind} {α : Type} {B : Bytes → α → Prop}
    (h : ∀ b, IsEntry k b ↔ ∃ x, B b x) {bs : Bytes} {n : Nat} (hb : Entries k bs n) :
    ∃ xs, BSeq B bs xs ∧ xs.length = n := by
  induction hb with
  | nil => exact ⟨[], .nil, rfl⟩
  | cons hx _ ih =>
    obtain ⟨x, hx⟩ := (h _).1 hx
    obtain ⟨xs, h1, h2⟩ := ih
    exact ⟨x :: xs, .cons hx h1, by simp [h2]⟩

theorem noStart_congr {P Q : Bytes → Prop} (h : ∀ b, P b ↔ Q b) {bs : Bytes} :
    NoStart P bs ↔ NoStart Q bs :=
  forall_congr' fun p => by rw [h p]

/-- C51: an input is rejected with an error about entry `i` of section `k` exactly when, after
sections that may open a module, a section of kind `k` begins that may stand there, whose bytes
start with a count greater than `i` and `i` complete entries, and no entry starts what follows. -/
theorem c51_entry {r : R} {k : SectionKind} {i : UInt32} :
    (∃ e r', decodeModule r = (.err e, r') ∧ e.entry = some (k, i)) ↔
    ∃ secs size rest b n bs tail, AtSection (avail r) secs k size rest ∧ MayFollow secs k ∧
      isListKind k = true ∧ rest.take size.toNat = b ++ (bs ++ tail) ∧ BU32 b n ∧ i < n ∧
      Entries k bs i.toNat ∧ NoStart (IsEntry k) tail := by
  constructor
  · rintro ⟨e, r', h, hi⟩
    have hin : e.inner = some k ∧ isListKind k = true := by
      unfold DecodeModuleError.entry at hi
      split at hi <;> simp_all only [Option.map_eq_some_iff, Prod.mk.injEq, DecodeModuleError.inner,
        reduceCtorEq]
      all_goals obtain ⟨_, _, rfl, _⟩ := hi; exact ⟨rfl, rfl⟩
    obtain ⟨hin, hlk⟩ := hin
    obtain ⟨secs, size, r1, t, hat, hm, _, hd⟩ := inner_place h hin
    have D := listDec (Take R) k hlk
    rcases D.failed _ _ _ _ hd with ⟨e0, h0, rfl⟩ | h0
    · rw [D.pos, Option.map_eq_some_iff] at hi
      obtain ⟨i', hi', hp⟩ := hi
      cases hp
      obtain ⟨b, n, bs, xs, tail, h1, h2, h3, h4, h5, h6⟩ :=
        (D.exct.list_entry_err i _).1 ⟨_, _, h0, hi'⟩
      refine ⟨_, size, _, b, n, bs, tail, hat, hm, hlk, h1, h2, h3, ?_, ?_⟩
      · rw [← h5]; exact entries_of D.entry h4
      · exact (noStart_congr D.entry).2 h6
    · rw [h0] at hin; cases hin
  · rintro ⟨secs, size, rest, b, n, bs, tail, hat, hm, hlk, h1, h2, h3, h4, h5⟩
    obtain ⟨st, r1, hav, _, he⟩ := body_place hat hm
    have D := listDec (Take R) k hlk
    obtain ⟨xs, h6, h7⟩ := entries_to D.entry h4
    obtain ⟨e, t, h8, h9⟩ := (D.exct.list_entry_err i
      ({ limit := size.toNat, inner := r1 } : Take R)).2
      ⟨b, n, bs, xs, tail, by rw [avail_take, hav]; exact h1, h2, h3, h6, h7,
        (noStart_congr D.entry).1 h5⟩
    obtain ⟨r', hr⟩ := he _ _ (D.fails st _ _ _ h8)
    exact ⟨_, r', hr, by rw [D.pos, h9]; rfl⟩

/-- C51: an input is rejected with an error about section `k` that names no entry exactly when no
count starts the bytes of the section. -/
theorem c51_count {r : R} {k : SectionKind} (hk : isListKind k = true) :
    (∃ e r', decodeModule r = (.err e, r') ∧ e.inner = some k ∧ e.entry = none) ↔
    ∃ secs size rest, AtSection (avail r) secs k size rest ∧ MayFollow secs k ∧
      NoStart (fun b => ∃ n, BU32 b n) (rest.take size.toNat) := by
  constructor
  · rintro ⟨e, r', h, hin, hi⟩
    obtain ⟨secs, size, r1, t, hat, hm, _, hd⟩ := inner_place h hin
    have D := listDec (Take R) k hk
    rcases D.failed _ _ _ _ hd with ⟨e0, h0, rfl⟩ | h0
    · rw [D.pos, Option.map_eq_none_iff] at hi
      exact ⟨_, _, _, hat, hm, (Exact.list_count_err (d := D.d) _).1 ⟨_, _, h0, hi⟩⟩
    · rw [h0] at hin; cases hin
  · rintro ⟨secs, size, rest, hat, hm, hn⟩
    obtain ⟨st, r1, hav, _, he⟩ := body_place hat hm
    have D := listDec (Take R) k hk
    obtain ⟨e, t, h8, h9⟩ := (Exact.list_count_err (d := D.d)
      ({ limit := size.toNat, inner := r1 } : Take R)).2 (by rw [avail_take, hav]; exact hn)
    obtain ⟨r', hr⟩ := he _ _ (D.fails st _ _ _ h8)
    exact ⟨_, r', hr, D.inner _, by rw [D.pos, h9]; rfl⟩

/-! ### C52 -/

theorem header_place {r r' : R} {x : DecodeSectionHeaderError}
    (h : decodeModule r = (.err (.DecodeSectionHeader x), r')) :
    ∃ secs r1, Behind (avail r) secs (avail r1) ∧ fin r1 = fin r ∧
      decodeSectionHeader r1 = (.err x, r') := by
  have hm := module_err h
  generalize he : DecodeModuleError.DecodeSectionHeader x = e at hm
  cases hm with
  | preamble => cases he
  | @header _ secs bs r1 a hb hacc hd =>
    cases he
    refine ⟨secs.map Prod.snd, r1, ?_, adv_fin a, hd⟩
    have := Behind.mk (rest := avail r1) hb hacc
    rw [adv_avail a]
    simpa using this
  | sect hb hacc h1 a hs =>
    cases hs with
    | duplicate => cases he
    | order => cases he
    | body ht ho hd =>
      cases body_err hd with
      | inner hi => rw [← he] at hi; cases hi
      | code => cases he
      | data => cases he
    | size => cases he
    | customSize => cases he
  | final _ _ _ _ hf => cases hf <;> cases he

theorem place_header {r : R} {secs : List Section} {rest : Bytes} (h : Behind (avail r) secs rest) :
    ∃ r1, avail r1 = rest ∧ fin r1 = fin r ∧ ∀ x r', decodeSectionHeader r1 = (.err x, r') →
      decodeModule r = (.err (.DecodeSectionHeader x), r') := by
  generalize hi : avail r = inp at h
  cases h with
  | mk hb hacc =>
    obtain ⟨r1, n, a1, av1, hn, e1⟩ := module_steps hb hacc hi
    refine ⟨r1, av1, adv_fin a1, fun x r' hx => ?_⟩
    rw [e1]
    match n, hn with
    | n + 1, _ => simp only [sectionLoop, Bind.bind, Dec.bind, Dec.mapErr, hx]

theorem behind_nil {inp : Bytes} {secs : List Section} : Behind inp secs [] ↔ AtEnd inp secs := by
  constructor
  · intro h
    generalize hr : ([] : Bytes) = rest at h
    cases h with
    | mk hb hacc => subst hr; rw [List.append_nil]; exact .mk hb hacc
  · intro h
    cases h with
    | mk hb hacc => have := Behind.mk (rest := []) hb hacc; rwa [List.append_nil] at this

theorem u32_exact : Exact (decodeU32 : Dec R _ _) BU32 where
  sound := decodeU32_sound
  runs := fun _ _ h => decodeU32_runs h
  total := Total.of_g fun _ => decodeU32_g

omit [LawfulRead R] in
theorem headerRest_none {b : UInt8} (h : ∀ k, sectionId k ≠ b) (r : R) [Read R] :
    sectionHeaderRest b r = (.err (.InvalidSectionId ⟨b⟩), r) := by
  have hn : fromMarker SectionKind.markers b = none := by
    cases hf : fromMarker SectionKind.markers b with
    | none => rfl
    | some k => exact absurd (markers_iff.1 hf).symm (h k)
  unfold sectionHeaderRest
  rw [hn]
  rfl

theorem headerRest_some {k : SectionKind} (r : R) :
    (∀ v r', decodeU32 r = (.ok v, r') → ∃ o, sectionHeaderRest (sectionId k) r = (.ok o, r')) ∧
    (∀ x r', decodeU32 r = (.err x, r') →
      sectionHeaderRest (sectionId k) r = (.err (.DecodeSectionSize x), r')) := by
  unfold sectionHeaderRest
  rw [markers_iff.2 rfl]
  constructor
  · intro v r' h
    exact ⟨_, by simp only [Bind.bind, Dec.bind, Dec.mapErr, h]; rfl⟩
  · intro v r' h
    simp only [Bind.bind, Dec.bind, Dec.mapErr, h]

theorem id_or (b : UInt8) : (∃ k, sectionId k = b) ∨ ∀ k, sectionId k ≠ b := by
  by_cases h : ∃ k, sectionId k = b
  · exact .inl h
  · exact .inr fun k hk => h ⟨k, hk⟩

/-- What becomes of a section header. -/
theorem header_cases (r : R) :
    (∃ b rest r', avail r = b :: rest ∧ (∀ k, sectionId k ≠ b) ∧
      decodeSectionHeader r = (.err (.InvalidSectionId ⟨b⟩), r')) ∨
    (∃ k rest x r', avail r = sectionId k :: rest ∧ NoStart (fun b => ∃ n, BU32 b n) rest ∧
      decodeSectionHeader r = (.err (.DecodeSectionSize x), r')) ∨
    (∃ k rest o r', avail r = sectionId k :: rest ∧ ¬ NoStart (fun b => ∃ n, BU32 b n) rest ∧
      decodeSectionHeader r = (.ok o, r')) ∨
    (∃ r', avail r = [] ∧ (∀ y, fin r = .fail y → y = .unexpectedEof) ∧
      decodeSectionHeader r = (.ok none, r')) ∨
    (∃ y r', avail r = [] ∧ fin r = .fail y ∧ y ≠ .unexpectedEof ∧
      decodeSectionHeader r = (.err (.ReadSectionIdByte y), r')) := by
  cases hav : avail r with
  | nil =>
    obtain ⟨r1, h1⟩ := header_nil hav
    cases hfin : fin r with
    | eof =>
      rw [hfin, if_pos (by rfl)] at h1
      exact .inr (.inr (.inr (.inl ⟨r1, rfl, nofun, h1⟩)))
    | fail y =>
      rw [hfin] at h1
      by_cases hy : y = .unexpectedEof
      · rw [if_pos (by exact hy)] at h1
        exact .inr (.inr (.inr (.inl ⟨r1, rfl, fun _ h => by cases h; exact hy, h1⟩)))
      · rw [if_neg (by exact hy)] at h1
        exact .inr (.inr (.inr (.inr ⟨y, r1, rfl, rfl, hy, h1⟩)))
  | cons b rest =>
    obtain ⟨r1, a1, e1⟩ := header_cons hav
    have hr : avail r1 = rest := by
      have := adv_avail a1
      rw [hav] at this
      simpa using this.symm
    rcases id_or b with ⟨k, rfl⟩ | hb
    · obtain ⟨hok, herr⟩ := headerRest_some (k := k) r1
      rcases u32_exact.total r1 with ⟨v, r2, h2⟩ | ⟨y, r2, h2⟩
      · obtain ⟨o, ho⟩ := hok _ _ h2
        refine .inr (.inr (.inl ⟨k, rest, o, r2, rfl, fun hn => ?_, by rw [e1, ho]⟩))
        rw [← hr] at hn
        obtain ⟨_, _, h3⟩ := (u32_exact.err_iff r1).2 hn
        rw [h2] at h3
        cases h3
      · refine .inr (.inl ⟨k, rest, y, r2, rfl, ?_, by rw [e1, herr _ _ h2]⟩)
        rw [← hr]
        exact (u32_exact.err_iff r1).1 ⟨_, _, h2⟩
    · exact .inl ⟨b, rest, r1, rfl, hb, by rw [e1, headerRest_none hb]⟩

/-- C52: an input is rejected with `InvalidSectionId` for the byte `b` exactly when, after sections
that may open a module, the byte `b` follows and it is the id of no section. -/
theorem c52_id {r : R} {b : UInt8} :
    (∃ r', decodeModule r = (.err (.DecodeSectionHeader (.InvalidSectionId ⟨b⟩)), r')) ↔
    ∃ secs rest, Behind (avail r) secs (b :: rest) ∧ ∀ k, sectionId k ≠ b := by
  constructor
  · rintro ⟨r', h⟩
    obtain ⟨secs, r1, hb, _, hd⟩ := header_place h
    rcases header_cases r1 with ⟨_, rest, _, ha, hn, h1⟩ | ⟨_, _, _, _, _, _, h1⟩ |
      ⟨_, _, _, _, _, _, h1⟩ | ⟨_, _, _, h1⟩ | ⟨_, _, _, _, _, h1⟩ <;> rw [h1] at hd <;> cases hd
    exact ⟨secs, rest, by rw [← ha]; exact hb, hn⟩
  · rintro ⟨secs, rest, hb, hn⟩
    obtain ⟨r1, hav, _, he⟩ := place_header hb
    rcases header_cases r1 with ⟨_, _, _, ha, _, h1⟩ | ⟨k, _, _, _, ha, _, h1⟩ |
      ⟨k, _, _, _, ha, _, h1⟩ | ⟨_, ha, _, h1⟩ | ⟨_, _, ha, _, _, h1⟩ <;> rw [hav] at ha <;> cases ha
    · exact ⟨_, he _ _ h1⟩
    · exact absurd rfl (hn k)
    · exact absurd rfl (hn k)

/-- C52: an input is rejected because of the size of a section exactly when, after sections that may
open a module, the id of a section follows and no `u32` starts the bytes behind it. -/
theorem c52_size {r : R} :
    (∃ x r', decodeModule r = (.err (.DecodeSectionHeader (.DecodeSectionSize x)), r')) ↔
    ∃ secs k rest, Behind (avail r) secs (sectionId k :: rest) ∧
      NoStart (fun b => ∃ n, BU32 b n) rest := by
  constructor
  · rintro ⟨x, r', h⟩
    obtain ⟨secs, r1, hb, _, hd⟩ := header_place h
    rcases header_cases r1 with ⟨_, _, _, _, _, h1⟩ | ⟨k, rest, _, _, ha, hn, h1⟩ |
      ⟨_, _, _, _, _, _, h1⟩ | ⟨_, _, _, h1⟩ | ⟨_, _, _, _, _, h1⟩ <;> rw [h1] at hd <;> cases hd
    exact ⟨secs, k, rest, by rw [← ha]; exact hb, hn⟩
  · rintro ⟨secs, k, rest, hb, hn⟩
    obtain ⟨r1, hav, _, he⟩ := place_header hb
    rcases header_cases r1 with ⟨_, _, _, ha, hk, h1⟩ | ⟨k', _, _, _, ha, _, h1⟩ |
      ⟨k', _, _, _, ha, hs, h1⟩ | ⟨_, ha, _, h1⟩ | ⟨_, _, ha, _, _, h1⟩ <;> rw [hav] at ha
    · simp only [List.cons.injEq] at ha; exact absurd ha.1 (hk k)
    · exact ⟨_, _, he _ _ h1⟩
    · simp only [List.cons.injEq] at ha; exact absurd (ha.2 ▸ hn) hs
    · cases ha
    · cases ha

/-- C52: an input is rejected because a section id could not be read exactly when the reader fails,
with an error of a kind other than `UnexpectedEof`, right behind sections that may open a module; the
error is the reader's. -/
theorem c52_read {r : R} {x : IoError} :
    (∃ r', decodeModule r = (.err (.DecodeSectionHeader (.ReadSectionIdByte x)), r')) ↔
    ∃ secs, AtEnd (avail r) secs ∧ fin r = .fail x ∧ x ≠ .unexpectedEof := by
  constructor
  · rintro ⟨r', h⟩
    obtain ⟨secs, r1, hb, hf, hd⟩ := header_place h
    rcases header_cases r1 with ⟨_, _, _, _, _, h1⟩ | ⟨_, _, _, _, _, _, h1⟩ |
      ⟨_, _, _, _, _, _, h1⟩ | ⟨_, _, _, h1⟩ | ⟨y, _, ha, hx, hy, h1⟩ <;> rw [h1] at hd <;> cases hd
    exact ⟨secs, behind_nil.1 (by rw [← ha]; exact hb), by rw [← hf]; exact hx, hy⟩
  · rintro ⟨secs, hb, hf, hx⟩
    obtain ⟨r1, hav, hf1, he⟩ := place_header (behind_nil.2 hb)
    rcases header_cases r1 with ⟨_, _, _, ha, _, h1⟩ | ⟨_, _, _, _, ha, _, h1⟩ |
      ⟨_, _, _, _, ha, _, h1⟩ | ⟨_, ha, hn, h1⟩ | ⟨y, _, ha, hy, _, h1⟩
    · rw [hav] at ha; cases ha
    · rw [hav] at ha; cases ha
    · rw [hav] at ha; cases ha
    · exact absurd (hn x (by rw [hf1]; exact hf)) hx
    · rw [hf1, hf] at hy
      cases hy
      exact ⟨_, he _ _ h1⟩

/-- C52: the variant `DecodeDataCount` of the error type is never returned. -/
theorem c52_never {r r' : R} : decodeModule r ≠ (.err .DecodeDataCount, r') := by
  intro h
  have hm := module_err h
  generalize he : DecodeModuleError.DecodeDataCount = e at hm
  cases hm with
  | preamble => cases he
  | header => cases he
  | sect hb hacc h1 a hs =>
    cases hs with
    | duplicate => cases he
    | order => cases he
    | body ht ho hd =>
      cases body_err hd with
      | inner hi => rw [← he] at hi; cases hi
      | code => cases he
      | data => cases he
    | size => cases he
    | customSize => cases he
  | final _ _ _ _ hf => cases hf <;> cases he

end

/-! ### Instances -/

/-- an import section announcing two imports: `(import "a" "b" (global i32))` and one whose external
type begins with the byte 07 -/
def badImport : Bytes := preamble ++ [0x02, 0x0D, 0x02,
  0x01, 0x61, 0x01, 0x62, 0x03, 0x7F, 0x00,
  0x01, 0x61, 0x01, 0x62, 0x07]

theorem badImport_err : ∃ e r', decodeModule (Src.ofBytes badImport) = (.err e, r') ∧
    e.inner = some .Import ∧ e.entry = some (.Import, 1) := by
  have h : (match (decodeModule (Src.ofBytes badImport)).1 with
    | .err e => decide (e.inner = some .Import ∧ e.entry = some (.Import, 1))
    | _ => false) = true := by decide +kernel
  generalize decodeModule (Src.ofBytes badImport) = o at h
  obtain ⟨res, r'⟩ := o
  cases res with
  | err e => exact ⟨e, r', rfl, of_decide_eq_true h⟩
  | ok v => cases h
  | panic => cases h
  | fuel => cases h

example : ∃ e r', decodeModule (Src.ofBytes badImport) = (.err e, r') ∧ e.inner = some .Import := by
  obtain ⟨e, r', h, hi, _⟩ := badImport_err
  exact ⟨e, r', h, hi⟩

/-- so the right-hand sides of `c50_section` and `c51_entry` are met -/
example : ∃ secs size rest, AtSection badImport secs .Import size rest ∧ MayFollow secs .Import ∧
    NoStart (fun b => ∃ s, s.kind = .Import ∧ BContents b s) (rest.take size.toNat) := by
  obtain ⟨e, r', h, hi, _⟩ := badImport_err
  have := (c50_section (r := Src.ofBytes badImport) (k := .Import) (by decide)).1 ⟨e, r', h, hi⟩
  rwa [avail_ofBytes] at this

example : ∃ secs size rest b n bs tail, AtSection badImport secs .Import size rest ∧
    MayFollow secs .Import ∧ isListKind .Import = true ∧ rest.take size.toNat = b ++ (bs ++ tail) ∧
    BU32 b n ∧ 1 < n ∧ Entries .Import bs 1 ∧ NoStart (IsEntry .Import) tail := by
  obtain ⟨e, r', h, _, hi⟩ := badImport_err
  have := (c51_entry (r := Src.ofBytes badImport) (k := .Import) (i := 1)).1 ⟨e, r', h, hi⟩
  rwa [avail_ofBytes] at this

/-- a table section whose count is cut off -/
example : ∃ e r', decodeModule (Src.ofBytes (preamble ++ [0x04, 0x01, 0x80])) = (.err e, r') ∧
    e.inner = some .Table ∧ e.entry = none := by
  refine ⟨_, _, rfl, ?_, ?_⟩ <;> rfl

/-- a custom section whose name is not UTF-8, and one that the reader does not deliver in full -/
example : ∃ e r', decodeModule (Src.ofBytes (preamble ++ [0x00, 0x02, 0x01, 0xFF])) = (.err e, r') ∧
    e.inner = some .Custom := by
  refine ⟨_, _, rfl, ?_⟩ <;> rfl

example : ∃ e r', decodeModule
    (⟨[.data preamble, .data [0x00, 0x05, 0x01, 0x61], .fail (.other 5)], []⟩ : Src) = (.err e, r') ∧
    e.inner = some .Custom := by
  refine ⟨_, _, rfl, ?_⟩ <;> rfl

/-- byte 0E behind a type section -/
theorem badId_err : ∃ r', decodeModule (Src.ofBytes (preamble ++ (secType ++ [0x0E, 0x00]))) =
    (.err (.DecodeSectionHeader (.InvalidSectionId ⟨0x0E⟩)), r') := ⟨_, rfl⟩

example : ∃ secs rest, Behind (preamble ++ (secType ++ [0x0E, 0x00])) secs (0x0E :: rest) ∧
    ∀ k, sectionId k ≠ 0x0E := by
  have := c52_id.1 badId_err
  rwa [avail_ofBytes] at this

example : ∃ x r', decodeModule (Src.ofBytes (preamble ++ (secType ++ [0x03, 0xFF]))) =
    (.err (.DecodeSectionHeader (.DecodeSectionSize x)), r') := ⟨_, _, rfl⟩

example : ∃ r', decodeModule (⟨[.data (preamble ++ secType), .fail (.other 5)], []⟩ : Src) =
    (.err (.DecodeSectionHeader (.ReadSectionIdByte (.other 5))), r') := ⟨_, rfl⟩

end Wadec
