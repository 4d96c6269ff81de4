import Verif.Props.Values
import Verif.Props.Module

/-! Where errors come from: a decoder fails exactly where nothing of its grammar starts. -/

namespace Wadec

open LawfulRead Spec

/-- The decoder returns `Ok` or `Err`. -/
def Total {R ε α : Type} (d : Dec R ε α) : Prop :=
  ∀ r, (∃ v r', d r = (.ok v, r')) ∨ (∃ e r', d r = (.err e, r'))

section
variable {R ε α : Type} [LawfulRead R] {d : Dec R ε α} {B : Bytes → α → Prop}

theorem Total.of_g [ErrInfo ε] {k : Nat} (h : ∀ L, G k L d d) : Total d := by
  intro r
  have := h _ r r (Nat.le_refl _) (List.prefix_refl _)
  rcases hd : d r with ⟨res, r'⟩
  rw [hd] at this
  cases res with
  | ok v => exact .inl ⟨v, r', rfl⟩
  | err e => exact .inr ⟨e, r', rfl⟩
  | panic => exact this.elim
  | fuel => exact this.elim

/-- Sound, complete, and never panicking. -/
structure Exact (d : Dec R ε α) (B : Bytes → α → Prop) : Prop where
  sound : Sound d B
  runs : ∀ b x, B b x → Runs d b x
  total : Total d

theorem Exact.err_iff (h : Exact d B) (r : R) :
    (∃ e r', d r = (.err e, r')) ↔ NoStart (fun b => ∃ x, B b x) (avail r) := by
  constructor
  · rintro ⟨e, r', he⟩ p ⟨x, hx⟩ ⟨t, ht⟩
    obtain ⟨r1, h1, _⟩ := h.runs p x hx r t ht.symm
    rw [h1] at he
    cases he
  · intro hn
    rcases h.total r with ⟨v, r', hd⟩ | h
    · obtain ⟨bs, a, hb⟩ := h.sound _ _ _ hd
      exact absurd ⟨avail r', (adv_avail a).symm⟩ (hn bs ⟨v, hb⟩)
    · exact h

theorem Exact.elems (h : Exact d B) {r r' : R} {xs : List α} (he : Elems d r xs r') :
    ∃ bs, BSeq B bs xs ∧ avail r = bs ++ avail r' := by
  induction he with
  | nil => exact ⟨[], .nil, by simp⟩
  | cons hx _ ih =>
    obtain ⟨b, a, hb⟩ := h.sound _ _ _ hx
    obtain ⟨bs, h1, h2⟩ := ih
    exact ⟨b ++ bs, .cons hb h1, by rw [adv_avail a, h2]; simp⟩

theorem Exact.elems_run (h : Exact d B) {bs : Bytes} {xs : List α} (hb : BSeq B bs xs) :
    ∀ {r : R} {tail : Bytes}, avail r = bs ++ tail → ∃ r', Elems d r xs r' ∧ avail r' = tail := by
  induction hb with
  | nil => intro r tail ha; exact ⟨r, .nil, by simpa using ha⟩
  | @cons b bs x xs hx _ ih =>
    intro r tail ha
    obtain ⟨r1, h1, a1⟩ := h.runs b x hx r (bs ++ tail) (by rw [ha]; simp)
    obtain ⟨r2, h2, h3⟩ := ih (r := r1) (tail := tail) (by
      have := adv_avail a1
      rw [ha, List.append_assoc] at this
      exact (List.append_cancel_left this).symm)
    exact ⟨r2, .cons h1 h2, h3⟩

theorem Exact.list_count_err (r : R) :
    (∃ e r', decodeList d r = (.err e, r') ∧ e.entry = none) ↔
      NoStart (fun b => ∃ n, BU32 b n) (avail r) := by
  have hu : Exact (decodeU32 : Dec R _ _) BU32 :=
    ⟨decodeU32_sound, fun _ _ => decodeU32_runs, Total.of_g fun _ => decodeU32_g⟩
  rw [← hu.err_iff]
  constructor
  · rintro ⟨e, r', he, hn⟩
    rcases (c10_list_err _ _ _).1 he with ⟨e', h1, rfl⟩ | ⟨n, r0, xs, r1, e', h1, h2, h3, h4, rfl⟩
    · exact ⟨_, _, h1⟩
    · simp [DecodeListError.entry] at hn
  · rintro ⟨e, r', he⟩
    exact ⟨_, _, (c10_list_err _ _ _).2 (.inl ⟨_, he, rfl⟩), rfl⟩

theorem Exact.list_entry_err (h : Exact d B) (i : UInt32) (r : R) :
    (∃ e r', decodeList d r = (.err e, r') ∧ e.entry = some i) ↔
      ∃ b n bs xs tail, avail r = b ++ (bs ++ tail) ∧ BU32 b n ∧ i < n ∧ BSeq B bs xs ∧
        xs.length = i.toNat ∧ NoStart (fun b => ∃ x, B b x) tail := by
  constructor
  · rintro ⟨e, r', he, hn⟩
    rcases (c10_list_err _ _ _).1 he with ⟨e', h1, rfl⟩ | ⟨n, r0, xs, r1, e', h1, h2, h3, h4, rfl⟩
    · simp [DecodeListError.entry] at hn
    · simp only [DecodeListError.entry, Option.some.injEq] at hn
      obtain ⟨b, a, hb⟩ := decodeU32_sound _ _ _ h1
      obtain ⟨bs, hs, ha⟩ := h.elems h3
      have hlt := n.toNat_lt
      have hi : i.toNat = xs.length := by
        rw [← hn, UInt32.toNat_ofNat', Nat.mod_eq_of_lt (by omega)]
      refine ⟨b, n, bs, xs, avail r1, ?_, hb, ?_, hs, hi.symm, (h.err_iff _).1 ⟨_, _, h4⟩⟩
      · rw [adv_avail a, ← ha]
        have := adv_avail (adv_reserve n.toNat r0)
        simpa using this
      · rw [UInt32.lt_iff_toNat_lt, hi]; exact h2
  · rintro ⟨b, n, bs, xs, tail, ha, hb, hi, hs, hl, hn⟩
    obtain ⟨r0, h0, a0⟩ := decodeU32_runs hb r _ ha
    have hav : avail (Read.reserve n.toNat r0) = bs ++ tail := by
      have h1 := adv_avail (adv_reserve n.toNat r0)
      have h2 := adv_avail a0
      rw [ha] at h2
      rw [← List.append_cancel_left h2] at h1
      simpa using h1.symm
    obtain ⟨r1, h1, h2⟩ := h.elems_run hs hav
    obtain ⟨e, r', he⟩ := (h.err_iff r1).2 (by rw [h2]; exact hn)
    refine ⟨_, _, (c10_list_err _ _ _).2 (.inr ⟨n, r0, xs, r1, e, h0, ?_, h1, he, rfl⟩), ?_⟩
    · rw [hl]; exact UInt32.lt_iff_toNat_lt.1 hi
    · simp [DecodeListError.entry, hl]

end

/-- How a list section `k` is decoded. -/
structure ListDec (R : Type) [LawfulRead R] (k : SectionKind) where
  ε : Type
  α : Type
  d : Dec R ε α
  B : Bytes → α → Prop
  wrap : DecodeListError ε → DecodeModuleError
  exct : Exact d B
  entry : ∀ b, IsEntry k b ↔ ∃ x, B b x
  fails : ∀ st r e r', decodeList d r = (.err e, r') → decodeSectionBody k st r = (.err (wrap e), r')
  failed : ∀ st r e r', decodeSectionBody k st r = (.err e, r') →
    (∃ e0, decodeList d r = (.err e0, r') ∧ e = wrap e0) ∨ e.inner = none
  pos : ∀ e, (wrap e).entry = e.entry.map (k, ·)
  inner : ∀ e, (wrap e).inner = some k

section
variable {R : Type} [LawfulRead R]

theorem body_bind_err {ε ε1 ε2 α β : Type} {d : Dec R ε α} {f : ε → ε1} {g : ε1 → ε2}
    {h : α → Dec R ε2 β} {r r' : R} {e : ε} (hd : d r = (.err e, r')) :
    (do let x ← (d.mapErr f).mapErr g; h x : Dec R ε2 β) r = (.err (g (f e)), r') := by
  simp only [Bind.bind, Dec.bind, Dec.mapErr, hd]

theorem body_err_bind {ε ε1 ε2 α β : Type} {d : Dec R ε α} {f : ε → ε1} {g : ε1 → ε2}
    {h : α → β} {r r' : R} {e : ε2}
    (hd : (do let x ← (d.mapErr f).mapErr g; pure (h x) : Dec R ε2 β) r = (.err e, r')) :
    ∃ e0, d r = (.err e0, r') ∧ e = g (f e0) := by
  obtain ⟨e1, h1, rfl⟩ := bind_pure_err hd
  obtain ⟨e0, rfl, h0⟩ := Dec.mapErr_err h1
  exact ⟨e0, h0, rfl⟩

def typeDec : ListDec R .Type where
  ε := _
  α := _
  d := _
  B := _
  exct := ⟨RecType.sound, fun _ _ => RecType.runs, Total.of_g fun _ => RecType.g⟩
  entry _ := Iff.rfl
  wrap e := .DecodeTypeSection (.DecodeList e)
  fails _ _ _ _ h := body_bind_err h
  failed _ _ _ _ h := .inl (body_err_bind h)
  pos _ := rfl
  inner _ := rfl

def importDec : ListDec R .Import where
  ε := _
  α := _
  d := _
  B := _
  exct := ⟨import_sound, fun _ _ => import_runs, Total.of_g fun _ => import_g⟩
  entry _ := Iff.rfl
  wrap e := .DecodeImportSection (.DecodeList e)
  fails _ _ _ _ h := body_bind_err h
  failed _ _ _ _ h := .inl (body_err_bind h)
  pos _ := rfl
  inner _ := rfl

def functionDec : ListDec R .Function where
  ε := _
  α := _
  d := _
  B := _
  exct := ⟨TypeIdx.sound, fun _ _ => TypeIdx.runs, Total.of_g fun _ => TypeIdx.g⟩
  entry _ := Iff.rfl
  wrap e := .DecodeFunctionSection (.DecodeList e)
  fails _ _ _ _ h := body_bind_err h
  failed _ _ _ _ h := .inl (body_err_bind h)
  pos _ := rfl
  inner _ := rfl

def tableDec : ListDec R .Table where
  ε := _
  α := _
  d := _
  B := _
  exct := ⟨table_sound, fun _ _ => table_runs, Total.of_g fun _ => table_g⟩
  entry _ := Iff.rfl
  wrap e := .DecodeTableSection (.DecodeList e)
  fails _ _ _ _ h := body_bind_err h
  failed _ _ _ _ h := .inl (body_err_bind h)
  pos _ := rfl
  inner _ := rfl

def memoryDec : ListDec R .Memory where
  ε := _
  α := _
  d := _
  B := _
  exct := ⟨memType_sound, fun _ _ => memType_runs, Total.of_g fun _ => memType_g⟩
  entry _ := Iff.rfl
  wrap e := .DecodeMemorySection (.DecodeList e)
  fails _ _ _ _ h := body_bind_err h
  failed _ _ _ _ h := .inl (body_err_bind h)
  pos _ := rfl
  inner _ := rfl

def tagDec : ListDec R .Tag where
  ε := _
  α := _
  d := _
  B := _
  exct := ⟨TagType.sound, fun _ _ => TagType.runs, Total.of_g fun _ => TagType.g⟩
  entry _ := Iff.rfl
  wrap e := .DecodeTagSection (.DecodeList e)
  fails _ _ _ _ h := body_bind_err h
  failed _ _ _ _ h := .inl (body_err_bind h)
  pos _ := rfl
  inner _ := rfl

def globalDec : ListDec R .Global where
  ε := _
  α := _
  d := _
  B := _
  exct := ⟨global_sound, fun _ _ => global_runs, Total.of_g fun _ => global_g⟩
  entry _ := Iff.rfl
  wrap e := .DecodeGlobalSection (.DecodeList e)
  fails _ _ _ _ h := body_bind_err h
  failed _ _ _ _ h := .inl (body_err_bind h)
  pos _ := rfl
  inner _ := rfl

def exportDec : ListDec R .Export where
  ε := _
  α := _
  d := _
  B := _
  exct := ⟨export_sound, fun _ _ => export_runs, Total.of_g fun _ => export_g⟩
  entry _ := Iff.rfl
  wrap e := .DecodeExportSection (.DecodeList e)
  fails _ _ _ _ h := body_bind_err h
  failed _ _ _ _ h := .inl (body_err_bind h)
  pos _ := rfl
  inner _ := rfl

def elementDec : ListDec R .Element where
  ε := _
  α := _
  d := _
  B := _
  exct := ⟨elem_sound, fun _ _ => elem_runs, Total.of_g fun _ => elem_g⟩
  entry _ := Iff.rfl
  wrap e := .DecodeElementSection (.DecodeList e)
  fails _ _ _ _ h := body_bind_err h
  failed _ _ _ _ h := .inl (body_err_bind h)
  pos _ := rfl
  inner _ := rfl

theorem code_failed {st : LoopState} {r r' : R} {e : DecodeModuleError}
    (h : decodeSectionBody .Code st r = (.err e, r')) :
    (∃ e0, decodeList parseCode r = (.err e0, r') ∧ e = .DecodeCodeSection (.DecodeList e0)) ∨
      e.inner = none := by
  have hb := body_err h
  cases hb with
  | inner hi =>
    left
    simp only [decodeSectionBody, decodeCodeSection, Bind.bind, Dec.bind, Dec.mapErr] at h
    rcases hd : (decodeList parseCode r : _ × _) with ⟨res, r1⟩
    rw [hd] at h
    cases res with
    | err e0 =>
      simp only [Prod.mk.injEq, Res.err.injEq] at h
      obtain ⟨rfl, rfl⟩ := h
      exact ⟨e0, rfl, rfl⟩
    | ok cs =>
      exfalso
      simp only at h
      split at h
      · simp only [Dec.err, Prod.mk.injEq, Res.err.injEq] at h
        obtain ⟨rfl, _⟩ := h
        simp [DecodeModuleError.inner] at hi
      · rename_i hl
        have := fillFuncs_eq (R := R) cs [] st.module.funcs st.encountered_data_idx_in_code_section
          (by simpa using hl)
        simp only [List.length_nil, List.nil_append] at this
        rw [this] at h
        simp [Dec.bind, Pure.pure, Dec.ok] at h
    | panic => simp at h
    | fuel => simp at h
  | code => exact .inr rfl
  | data => exact .inr rfl

def codeDec : ListDec R .Code where
  ε := _
  α := _
  d := _
  B := _
  exct := ⟨code_sound, fun _ _ => code_runs, Total.of_g fun _ => code_g⟩
  entry b := by
    constructor
    · rintro ⟨c, h⟩
      obtain ⟨d, h, _⟩ := BCode.toBCodeD h
      exact ⟨d, h⟩
    · rintro ⟨d, h⟩
      exact ⟨_, h.toBCode⟩
  wrap e := .DecodeCodeSection (.DecodeList e)
  fails _ _ _ _ h := body_bind_err h
  failed _ _ _ _ h := code_failed h
  pos _ := rfl
  inner _ := rfl

theorem data_failed {st : LoopState} {r r' : R} {e : DecodeModuleError}
    (h : decodeSectionBody .Data st r = (.err e, r')) :
    (∃ e0, decodeList parseData r = (.err e0, r') ∧ e = .DecodeDataSection (.DecodeList e0)) ∨
      e.inner = none := by
  have hb := body_err h
  cases hb with
  | inner hi =>
    left
    simp only [decodeSectionBody, decodeDataSection, Bind.bind, Dec.bind, Dec.mapErr] at h
    rcases hd : (decodeList parseData r : _ × _) with ⟨res, r1⟩
    rw [hd] at h
    cases res with
    | err e0 =>
      simp only [Prod.mk.injEq, Res.err.injEq] at h
      obtain ⟨rfl, rfl⟩ := h
      exact ⟨e0, rfl, rfl⟩
    | ok ds =>
      exfalso
      simp only at h
      cases hn : st.module.data_count with
      | none => simp [hn, Pure.pure, Dec.ok] at h
      | some n =>
        simp only [hn] at h
        split at h
        · simp only [Dec.err, Prod.mk.injEq, Res.err.injEq] at h
          obtain ⟨rfl, _⟩ := h
          simp [DecodeModuleError.inner] at hi
        · simp [Pure.pure, Dec.ok] at h
    | panic => simp at h
    | fuel => simp at h
  | code => exact .inr rfl
  | data => exact .inr rfl

def dataDec : ListDec R .Data where
  ε := _
  α := _
  d := _
  B := _
  exct := ⟨data_sound, fun _ _ => data_runs, Total.of_g fun _ => data_g⟩
  entry _ := Iff.rfl
  wrap e := .DecodeDataSection (.DecodeList e)
  fails _ _ _ _ h := body_bind_err h
  failed _ _ _ _ h := data_failed h
  pos _ := rfl
  inner _ := rfl

def listDec (R : Type) [LawfulRead R] (k : SectionKind) (hk : isListKind k = true) : ListDec R k :=
  match k, hk with
  | .Type, _ => typeDec
  | .Import, _ => importDec
  | .Function, _ => functionDec
  | .Table, _ => tableDec
  | .Memory, _ => memoryDec
  | .Tag, _ => tagDec
  | .Global, _ => globalDec
  | .Export, _ => exportDec
  | .Element, _ => elementDec
  | .Code, _ => codeDec
  | .Data, _ => dataDec

end

end Wadec
