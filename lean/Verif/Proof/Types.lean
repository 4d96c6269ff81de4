import Verif.Proof.Clear
import Verif.Proof.Helpers
import Verif.Model.Types

/-! The type decoders implement the type grammar. -/

namespace Wadec

open LawfulRead Spec

section
variable {R S : Type} [LawfulRead R] [LawfulRead S] {L : Nat}

/-! ### Marker tables -/

theorem fromMarker_mem {α : Type} {l : List (UInt8 × α)} {b : UInt8} {t : α}
    (h : fromMarker l b = some t) : (b, t) ∈ l := by
  unfold fromMarker at h
  induction l with
  | nil => cases h
  | cons p l ih =>
    obtain ⟨c, u⟩ := p
    rw [List.lookup_cons] at h
    split at h
    · rename_i hbc
      cases h
      simp [eq_of_beq hbc]
    · exact List.mem_cons_of_mem _ (ih h)

theorem fromMarker_none {α : Type} {l : List (UInt8 × α)} {b : UInt8}
    (h : ∀ t, (b, t) ∉ l) : fromMarker l b = none := by
  cases hb : fromMarker l b with
  | none => rfl
  | some t => exact absurd (fromMarker_mem hb) (h t)

theorem absMarker_iff {b : UInt8} {t : AbsHeapType} :
    fromMarker AbsHeapType.markers b = some t ↔ BAbsHeapType [b] t := by
  constructor
  · intro h
    have := fromMarker_mem h
    simp only [AbsHeapType.markers, List.mem_cons, Prod.mk.injEq, List.not_mem_nil, or_false] at this
    rcases this with h | h | h | h | h | h | h | h | h | h | h | h <;> (obtain ⟨rfl, rfl⟩ := h) <;>
      constructor
  · intro h
    cases h <;> rfl

theorem BAbsHeapType.single {bs : Bytes} {t : AbsHeapType} (h : BAbsHeapType bs t) : ∃ b, bs = [b] := by
  cases h <;> exact ⟨_, rfl⟩

theorem mutMarker_iff {b : UInt8} {t : Mut} : fromMarker Mut.markers b = some t ↔ BMut [b] t := by
  constructor
  · intro h
    have := fromMarker_mem h
    simp only [Mut.markers, List.mem_cons, Prod.mk.injEq, List.not_mem_nil, or_false] at this
    rcases this with h | h <;> (obtain ⟨rfl, rfl⟩ := h) <;> constructor
  · intro h
    cases h <;> rfl

theorem BMut.single {bs : Bytes} {t : Mut} (h : BMut bs t) : ∃ b, bs = [b] := by
  cases h <;> exact ⟨_, rfl⟩

/-! ### s33 as a type index -/

theorem BS.nonempty {N : Nat} {v : Int} : ¬ BS N [] v := by
  intro h; cases h

theorem BU.nonempty {N : Nat} {v : Nat} : ¬ BU N [] v := by
  intro h; cases h

theorem BS.range {N : Nat} {bs : Bytes} {v : Int} (h : BS N bs v) :
    -2 ^ (N - 1) ≤ v ∧ v < 2 ^ (N - 1) := by
  induction bs generalizing N v with
  | nil => exact absurd h BS.nonempty
  | cons b bs ih =>
    rcases BS.cases_last h with ⟨b, _, _, _, h1, h2⟩ | ⟨b', t, m, heq, hb, hN, hB, rfl⟩
    · exact ⟨h1, h2⟩
    · cases heq
      have := ih hB
      have h4 : (2 : Int) ^ (N - 1) = 2 ^ (N - 7 - 1) * 128 := by
        rw [← ipow_add7]; congr 1; omega
      have := UInt8.toNat_lt b
      have hp : (0 : Int) < 2 ^ (N - 7 - 1) := by exact_mod_cast Nat.two_pow_pos _
      rw [h4]
      omega

/-- A non-negative number does not start with a byte 0x40..0x7F. -/
theorem BS.nonneg_head {N : Nat} {b : UInt8} {bs : Bytes} {v : Int} (h : BS N (b :: bs) v)
    (hv : 0 ≤ v) : b.toNat < 64 ∨ 128 ≤ b.toNat := by
  rcases BS.cases_last h with ⟨b', heq, h1, rfl, _⟩ | ⟨b', t, m, heq, hb, _⟩
  · cases heq
    unfold Wadec.lastVal at hv
    split at hv <;> omega
  · cases heq
    exact .inr hb

theorem i64ToU32_sound {ε : Type} {x : Int64} {bs : Bytes} (h : BS33 bs x) :
    Sound (R := R) (ε := ε) (i64ToU32 x) (fun b v => b = [] ∧ BS 33 bs v.toNat) := by
  unfold i64ToU32
  refine Sound.ite (fun hx => Sound.pure ⟨rfl, ?_⟩) fun _ => Sound.panic
  rw [UInt32.toNat_ofNat', Nat.mod_eq_of_lt (by omega), Int.toNat_of_nonneg hx.1]
  exact h

theorem i64ToU32_runs {ε : Type} {x : Int64} {v : UInt32} (h : x.toInt = v.toNat) :
    Runs (R := R) (ε := ε) (i64ToU32 x) [] v := by
  unfold i64ToU32
  have := UInt32.toNat_lt v
  refine Runs.ite_pos (by omega) ?_
  rw [h]
  simp only [Int.toNat_natCast, UInt32.ofNat_toNat]
  exact Runs.pure

theorem i64ToU32_g {ε : Type} [ErrInfo ε] {x : Int64} {bs : Bytes} (h : BS33 bs x)
    (hx : ¬ x.toInt < 0) : G (ε := ε) 0 L (i64ToU32 x : Dec R _ _) (i64ToU32 x : Dec S _ _) := by
  unfold i64ToU32
  refine G.ite (fun _ => G.pure) fun hn => ?_
  have := BS.range h
  simp at this
  exact absurd ⟨by omega, by omega⟩ hn

theorem BS33.ofU32 {bs : Bytes} {x : UInt32} (h : BS 33 bs x.toNat) :
    BS33 bs (Int64.ofInt x.toNat) ∧ (Int64.ofInt x.toNat).toInt = x.toNat := by
  have := UInt32.toNat_lt x
  have h2 : (Int64.ofInt x.toNat).toInt = x.toNat :=
    Int64.toInt_ofInt_of_le (by simp <;> omega) (by simp <;> omega)
  exact ⟨by unfold BS33; rw [h2]; exact h, h2⟩

/-! ### Heap types -/

theorem HeapType.sound : Sound (R := R) HeapType.decode BHeapType := by
  refine Sound.bind (Sound.mapErr Sound.readByte) ?_
  rintro b _ rfl
  split
  · rename_i t ht
    exact Sound.pure (BHeapType.abs (absMarker_iff.1 ht))
  · refine Sound.bind (Sound.mapErr (Sound.withChain decodeS33_sound (fun v => BS.nonempty))) ?_
    intro x b2 hx
    refine Sound.ite (fun _ => Sound.err) fun _ => ?_
    refine Sound.bind (i64ToU32_sound hx) ?_
    rintro v _ ⟨rfl, hv⟩
    exact Sound.pure (BHeapType.idx (by simpa using hv))

theorem HeapType.runs {bs : Bytes} {t : HeapType} (h : BHeapType bs t) :
    Runs (R := R) HeapType.decode bs t := by
  cases h with
  | abs h =>
    obtain ⟨b, rfl⟩ := BAbsHeapType.single h
    refine Runs.bind (b1 := [b]) (b2 := []) (Runs.mapErr Runs.readByte) ?_
    rw [absMarker_iff.2 h]
    exact Runs.pure
  | @idx x h =>
    match bs, h with
    | [], h => exact absurd h BS.nonempty
    | b :: bs, h =>
      have hb := BS.nonneg_head h (by omega)
      refine Runs.bind (b1 := [b]) (b2 := bs) (Runs.mapErr Runs.readByte) ?_
      rw [fromMarker_none (by
        intro t ht
        simp only [AbsHeapType.markers, List.mem_cons, Prod.mk.injEq, List.not_mem_nil, or_false] at ht
        rcases ht with h | h | h | h | h | h | h | h | h | h | h | h <;> (obtain ⟨rfl, _⟩ := h) <;>
          revert hb <;> decide)]
      obtain ⟨h1, h2⟩ := BS33.ofU32 h
      rw [← List.append_nil bs]
      refine Runs.bind (Runs.mapErr (Runs.withChain (decodeS33_runs h1))) ?_
      refine Runs.ite_neg (by omega) ?_
      exact Runs.bind_pure (i64ToU32_runs h2)

theorem HeapType.g : G 1 L (HeapType.decode : Dec R _ _) (HeapType.decode : Dec S _ _) := by
  refine G.bind (gmap G.readByte) (j := 0) (fun b => ?_) (by omega)
  split
  · exact G.pure
  · refine G.bindP (k := 0) (j := 0) (Sound.post (Sound.mapErr (Sound.withChain decodeS33_sound
      (fun v => BS.nonempty)))) (G.mono (gmap (G.withChain decodeS33_g)) (by omega)) ?_ (by omega)
    rintro _ x ⟨bs, hx⟩
    refine G.ite (fun _ => G.err) fun hn => ?_
    exact G.bind0 (i64ToU32_g hx hn) fun _ => G.pure

theorem AbsHeapType.sound : Sound (R := R) AbsHeapType.decode BAbsHeapType := by
  refine Sound.bind (Sound.mapErr Sound.readByte) ?_
  rintro b _ rfl
  split
  · rename_i t ht
    exact Sound.pure (absMarker_iff.1 ht)
  · exact Sound.err

theorem AbsHeapType.runs {bs : Bytes} {t : AbsHeapType} (h : BAbsHeapType bs t) :
    Runs (R := R) AbsHeapType.decode bs t := by
  obtain ⟨b, rfl⟩ := BAbsHeapType.single h
  refine Runs.bind (b1 := [b]) (b2 := []) (Runs.mapErr Runs.readByte) ?_
  rw [absMarker_iff.2 h]
  exact Runs.pure

theorem AbsHeapType.g : G 1 L (AbsHeapType.decode : Dec R _ _) (AbsHeapType.decode : Dec S _ _) := by
  refine G.bind (gmap G.readByte) (j := 0) (fun b => ?_) (by omega)
  split
  · exact G.pure
  · exact G.err

/-! ### Reference and value types -/

theorem BAbsHeapType.nonempty {t : AbsHeapType} : ¬ BAbsHeapType [] t := by intro h; cases h
theorem BHeapType.nonempty {t : HeapType} : ¬ BHeapType [] t := by
  intro h
  cases h with
  | abs h => exact BAbsHeapType.nonempty h
  | idx h => exact BS.nonempty h
theorem BRefType.nonempty {t : RefType} : ¬ BRefType [] t := by
  intro h
  cases h with
  | abs h => exact BAbsHeapType.nonempty h
theorem BValType.nonempty {t : ValType} : ¬ BValType [] t := by
  intro h
  cases h with
  | ref h => exact BRefType.nonempty h

theorem RefType.sound : Sound (R := R) RefType.decode BRefType := by
  refine Sound.bind (Sound.mapErr Sound.readByte) ?_
  rintro b _ rfl
  refine Sound.ite ?_ fun _ => Sound.ite ?_ fun _ => ?_
  · rintro rfl
    exact Sound.bind (Sound.mapErr HeapType.sound) fun ht b h =>
      Sound.pure (by simpa using BRefType.refNull h)
  · rintro rfl
    exact Sound.bind (Sound.mapErr HeapType.sound) fun ht b h =>
      Sound.pure (by simpa using BRefType.ref h)
  · exact Sound.bind (Sound.mapErr (Sound.withChain AbsHeapType.sound (fun _ => BAbsHeapType.nonempty)))
      fun ht b h => Sound.pure (by simpa using BRefType.abs h)

theorem RefType.runs {bs : Bytes} {t : RefType} (h : BRefType bs t) :
    Runs (R := R) RefType.decode bs t := by
  cases h with
  | @ref bs ht h =>
    refine Runs.bind (b1 := [0x64]) (b2 := bs) (Runs.mapErr Runs.readByte) ?_
    exact Runs.ite_neg (by decide) (Runs.ite_pos rfl (Runs.bind_pure (Runs.mapErr (HeapType.runs h))))
  | @refNull bs ht h =>
    refine Runs.bind (b1 := [0x63]) (b2 := bs) (Runs.mapErr Runs.readByte) ?_
    exact Runs.ite_pos rfl (Runs.bind_pure (Runs.mapErr (HeapType.runs h)))
  | @abs bs t h =>
    obtain ⟨b, rfl⟩ := BAbsHeapType.single h
    refine Runs.bind (b1 := [b]) (b2 := []) (Runs.mapErr Runs.readByte) ?_
    have hb : b ≠ 0x63 ∧ b ≠ 0x64 := by cases h <;> decide
    refine Runs.ite_neg hb.1 (Runs.ite_neg hb.2 ?_)
    exact Runs.bind_pure (f := fun aht => (⟨true, .Ht aht⟩ : RefType))
      (Runs.mapErr (Runs.withChain (AbsHeapType.runs h)))

theorem RefType.g : G 1 L (RefType.decode : Dec R _ _) (RefType.decode : Dec S _ _) := by
  refine G.bind (gmap G.readByte) (j := 0) (fun b => ?_) (by omega)
  refine G.ite (fun _ => ?_) fun _ => G.ite (fun _ => ?_) fun _ => ?_
  · exact G.bind0 (G.mono (gmap HeapType.g) (by omega)) fun _ => G.pure
  · exact G.bind0 (G.mono (gmap HeapType.g) (by omega)) fun _ => G.pure
  · exact G.bind0 (G.mono (gmap (G.withChain AbsHeapType.g)) (by omega)) fun _ => G.pure

theorem ValType.sound : Sound (R := R) ValType.decode BValType := by
  refine Sound.bind (Sound.mapErr Sound.readByte) ?_
  rintro b _ rfl
  refine Sound.ite ?_ fun _ => Sound.ite ?_ fun _ => Sound.ite ?_ fun _ => Sound.ite ?_ fun _ =>
    Sound.ite ?_ fun _ => ?_
  · rintro rfl; exact Sound.pure .i32
  · rintro rfl; exact Sound.pure .i64
  · rintro rfl; exact Sound.pure .f32
  · rintro rfl; exact Sound.pure .f64
  · rintro rfl; exact Sound.pure .v128
  · exact Sound.bind (Sound.mapErr (Sound.withChain RefType.sound (fun _ => BRefType.nonempty)))
      fun rt b h => Sound.pure (by simpa using BValType.ref h)

theorem BRefType.head {b : UInt8} {bs : Bytes} {t : RefType} (h : BRefType (b :: bs) t) :
    b.toNat ≤ 0x74 := by
  cases h with
  | ref => decide
  | refNull => decide
  | abs h => cases h <;> decide

theorem ValType.runs {bs : Bytes} {t : ValType} (h : BValType bs t) :
    Runs (R := R) ValType.decode bs t := by
  cases h with
  | i32 => exact Runs.bind (b1 := [0x7F]) (b2 := []) (Runs.mapErr Runs.readByte) Runs.pure
  | i64 => exact Runs.bind (b1 := [0x7E]) (b2 := []) (Runs.mapErr Runs.readByte) Runs.pure
  | f32 => exact Runs.bind (b1 := [0x7D]) (b2 := []) (Runs.mapErr Runs.readByte) Runs.pure
  | f64 => exact Runs.bind (b1 := [0x7C]) (b2 := []) (Runs.mapErr Runs.readByte) Runs.pure
  | v128 => exact Runs.bind (b1 := [0x7B]) (b2 := []) (Runs.mapErr Runs.readByte) Runs.pure
  | @ref bs t h =>
    match bs, h with
    | [], h => exact absurd h BRefType.nonempty
    | b :: bs, h =>
      refine Runs.bind (b1 := [b]) (b2 := bs) (Runs.mapErr Runs.readByte) ?_
      have hb := BRefType.head h
      have hne : ∀ c : UInt8, 0x74 < c.toNat → b ≠ c := by rintro c hc rfl; omega
      refine Runs.ite_neg (hne _ (by decide)) (Runs.ite_neg (hne _ (by decide))
        (Runs.ite_neg (hne _ (by decide)) (Runs.ite_neg (hne _ (by decide))
        (Runs.ite_neg (hne _ (by decide)) ?_))))
      exact Runs.bind_pure (Runs.mapErr (Runs.withChain (RefType.runs h)))

theorem ValType.g : G 1 L (ValType.decode : Dec R _ _) (ValType.decode : Dec S _ _) := by
  refine G.bind (gmap G.readByte) (j := 0) (fun b => ?_) (by omega)
  refine G.ite (fun _ => G.pure) fun _ => G.ite (fun _ => G.pure) fun _ =>
    G.ite (fun _ => G.pure) fun _ => G.ite (fun _ => G.pure) fun _ => G.ite (fun _ => G.pure) fun _ => ?_
  exact G.bind0 (G.mono (gmap (G.withChain RefType.g)) (by omega)) fun _ => G.pure

theorem resultType_sound : Sound (R := R) decodeResultType BResultType :=
  Sound.mapErr (list_sound ValType.sound)
theorem resultType_runs {bs : Bytes} {ts : List ValType} (h : BResultType bs ts) :
    Runs (R := R) decodeResultType bs ts := Runs.mapErr (list_runs (fun _ _ => ValType.runs) h)
theorem resultType_g : G 1 L (decodeResultType : Dec R _ _) (decodeResultType : Dec S _ _) :=
  gmap (list_g fun _ _ => G.mono ValType.g (by omega))

/-! ### Global types -/

theorem GlobalType.sound : Sound (R := R) GlobalType.decode BGlobalType := by
  refine Sound.bind (Sound.mapErr ValType.sound) fun t b1 ht => ?_
  refine Sound.bind (Sound.mapErr Sound.readByte) ?_
  rintro b _ rfl
  split
  · rename_i m hm
    exact Sound.pure (by simpa using BGlobalType.mk ht (mutMarker_iff.1 hm))
  · exact Sound.err

theorem GlobalType.runs {bs : Bytes} {t : GlobalType} (h : BGlobalType bs t) :
    Runs (R := R) GlobalType.decode bs t := by
  cases h with
  | mk h1 h2 =>
    obtain ⟨b, rfl⟩ := BMut.single h2
    refine Runs.bind (Runs.mapErr (ValType.runs h1)) ?_
    refine Runs.bind (b1 := [b]) (b2 := []) (Runs.mapErr Runs.readByte) ?_
    rw [mutMarker_iff.2 h2]
    exact Runs.pure

theorem GlobalType.g : G 1 L (GlobalType.decode : Dec R _ _) (GlobalType.decode : Dec S _ _) := by
  refine G.bind (gmap ValType.g) (j := 0) (fun t => ?_) (by omega)
  refine G.bind0 (G.mono (gmap G.readByte) (by omega)) fun b => ?_
  split
  · exact G.pure
  · exact G.err

/-! ### Composite types -/

theorem packMarker_iff {b : UInt8} {t : PackType} : fromMarker PackType.markers b = some t ↔
    (b = 0x77 ∧ t = .I16) ∨ (b = 0x78 ∧ t = .I8) := by
  constructor
  · intro h
    have := fromMarker_mem h
    simp only [PackType.markers, List.mem_cons, Prod.mk.injEq, List.not_mem_nil, or_false] at this
    exact this
  · rintro (⟨rfl, rfl⟩ | ⟨rfl, rfl⟩) <;> rfl

theorem storageType_sound : Sound (R := R) decodeStorageType BStorageType := by
  refine Sound.bind (Sound.mapErr Sound.readByte) ?_
  rintro b _ rfl
  split
  · rename_i t ht
    rcases packMarker_iff.1 ht with ⟨rfl, rfl⟩ | ⟨rfl, rfl⟩
    · exact Sound.pure .i16
    · exact Sound.pure .i8
  · exact Sound.bind (Sound.mapErr (Sound.withChain ValType.sound (fun _ => BValType.nonempty)))
      fun t b h => Sound.pure (by simpa using BStorageType.val h)

theorem BValType.head {b : UInt8} {bs : Bytes} {t : ValType} (h : BValType (b :: bs) t) :
    b.toNat ≤ 0x74 ∨ 0x7B ≤ b.toNat := by
  cases h with
  | i32 => exact .inr (by decide)
  | i64 => exact .inr (by decide)
  | f32 => exact .inr (by decide)
  | f64 => exact .inr (by decide)
  | v128 => exact .inr (by decide)
  | ref h => exact .inl (BRefType.head h)

theorem storageType_runs {bs : Bytes} {t : StorageType} (h : BStorageType bs t) :
    Runs (R := R) decodeStorageType bs t := by
  cases h with
  | i16 => exact Runs.bind (b1 := [0x77]) (b2 := []) (Runs.mapErr Runs.readByte) Runs.pure
  | i8 => exact Runs.bind (b1 := [0x78]) (b2 := []) (Runs.mapErr Runs.readByte) Runs.pure
  | @val bs t h =>
    match bs, h with
    | [], h => exact absurd h BValType.nonempty
    | b :: bs, h =>
      refine Runs.bind (b1 := [b]) (b2 := bs) (Runs.mapErr Runs.readByte) ?_
      have hb := BValType.head h
      rw [fromMarker_none (by
        intro t ht
        simp only [PackType.markers, List.mem_cons, Prod.mk.injEq, List.not_mem_nil, or_false] at ht
        rcases ht with h | h <;> (obtain ⟨rfl, _⟩ := h) <;> revert hb <;> decide)]
      exact Runs.bind_pure (Runs.mapErr (Runs.withChain (ValType.runs h)))

theorem storageType_g : G 1 L (decodeStorageType : Dec R _ _) (decodeStorageType : Dec S _ _) := by
  refine G.bind (gmap G.readByte) (j := 0) (fun b => ?_) (by omega)
  split
  · exact G.pure
  · exact G.bind0 (G.mono (gmap (G.withChain ValType.g)) (by omega)) fun _ => G.pure

theorem fieldType_sound : Sound (R := R) decodeFieldType BFieldType := by
  refine Sound.bind (Sound.mapErr storageType_sound) fun t b1 ht => ?_
  refine Sound.bind (Sound.mapErr Sound.readByte) ?_
  rintro b _ rfl
  split
  · rename_i m hm
    exact Sound.pure (by simpa using BFieldType.mk ht (mutMarker_iff.1 hm))
  · exact Sound.err

theorem fieldType_runs {bs : Bytes} {t : FieldType} (h : BFieldType bs t) :
    Runs (R := R) decodeFieldType bs t := by
  cases h with
  | mk h1 h2 =>
    obtain ⟨b, rfl⟩ := BMut.single h2
    refine Runs.bind (Runs.mapErr (storageType_runs h1)) ?_
    refine Runs.bind (b1 := [b]) (b2 := []) (Runs.mapErr Runs.readByte) ?_
    rw [mutMarker_iff.2 h2]
    exact Runs.pure

theorem fieldType_g : G 1 L (decodeFieldType : Dec R _ _) (decodeFieldType : Dec S _ _) := by
  refine G.bind (gmap storageType_g) (j := 0) (fun t => ?_) (by omega)
  refine G.bind0 (G.mono (gmap G.readByte) (by omega)) fun b => ?_
  split
  · exact G.pure
  · exact G.err

theorem CompType.sound : Sound (R := R) CompType.decode BCompType := by
  refine Sound.bind (Sound.mapErr Sound.readByte) ?_
  rintro b _ rfl
  refine Sound.ite ?_ fun _ => Sound.ite ?_ fun _ => Sound.ite ?_ fun _ => Sound.err
  · rintro rfl
    exact Sound.bind (Sound.mapErr fieldType_sound) fun t b h =>
      Sound.pure (by simpa using BCompType.array h)
  · rintro rfl
    exact Sound.bind (Sound.mapErr (list_sound fieldType_sound)) fun t b h =>
      Sound.pure (by simpa using BCompType.struct h)
  · rintro rfl
    exact Sound.bind (Sound.mapErr resultType_sound) fun t1 b1 h1 =>
      Sound.bind (Sound.mapErr resultType_sound) fun t2 b2 h2 =>
      Sound.pure (by simpa using BCompType.func h1 h2)

theorem CompType.runs {bs : Bytes} {t : CompType} (h : BCompType bs t) :
    Runs (R := R) CompType.decode bs t := by
  cases h with
  | @array bs ft h =>
    refine Runs.bind (b1 := [0x5E]) (b2 := bs) (Runs.mapErr Runs.readByte) ?_
    exact Runs.ite_pos rfl (Runs.bind_pure (Runs.mapErr (fieldType_runs h)))
  | @struct bs ft h =>
    refine Runs.bind (b1 := [0x5F]) (b2 := bs) (Runs.mapErr Runs.readByte) ?_
    exact Runs.ite_neg (by decide) (Runs.ite_pos rfl
      (Runs.bind_pure (Runs.mapErr (list_runs (fun _ _ => fieldType_runs) h))))
  | @func b1 b2 t1 t2 h1 h2 =>
    refine Runs.bind (b1 := [0x60]) (b2 := b1 ++ b2) (Runs.mapErr Runs.readByte) ?_
    exact Runs.ite_neg (by decide) (Runs.ite_neg (by decide) (Runs.ite_pos rfl
      (Runs.bind (Runs.mapErr (resultType_runs h1))
        (Runs.bind_pure (Runs.mapErr (resultType_runs h2))))))

theorem CompType.g : G 1 L (CompType.decode : Dec R _ _) (CompType.decode : Dec S _ _) := by
  refine G.bind (gmap G.readByte) (j := 0) (fun b => ?_) (by omega)
  refine G.ite (fun _ => ?_) fun _ => G.ite (fun _ => ?_) fun _ => G.ite (fun _ => ?_) fun _ => G.err
  · exact G.bind0 (G.mono (gmap fieldType_g) (by omega)) fun _ => G.pure
  · exact G.bind0 (G.mono (gmap (list_g fun _ _ => G.mono fieldType_g (by omega))) (by omega))
      fun _ => G.pure
  · exact G.bind0 (G.mono (gmap resultType_g) (by omega)) fun _ =>
      G.bind0 (G.mono (gmap resultType_g) (by omega)) fun _ => G.pure

/-! ### Sub types and recursive types -/

theorem BCompType.nonempty {t : CompType} : ¬ BCompType [] t := by intro h; cases h
theorem BSubType.nonempty {t : SubType} : ¬ BSubType [] t := by
  intro h
  cases h with
  | comp h => exact BCompType.nonempty h

theorem SubType.sound : Sound (R := R) SubType.decode BSubType := by
  refine Sound.bind (Sound.mapErr Sound.readByte) ?_
  rintro b _ rfl
  refine Sound.ite ?_ fun _ => ?_
  · rintro hb
    refine Sound.bind (Sound.mapErr (list_sound TypeIdx.sound)) fun x b1 h1 =>
      Sound.bind (Sound.mapErr CompType.sound) fun ct b2 h2 => Sound.pure ?_
    rcases hb with rfl | rfl
    · simpa using BSubType.final h1 h2
    · simpa using BSubType.open h1 h2
  · exact Sound.bind (Sound.mapErr (Sound.withChain CompType.sound (fun _ => BCompType.nonempty)))
      fun t b h => Sound.pure (by simpa using BSubType.comp h)

theorem BCompType.head {b : UInt8} {bs : Bytes} {t : CompType} (h : BCompType (b :: bs) t) :
    0x5E ≤ b.toNat ∧ b.toNat ≤ 0x60 := by
  cases h <;> decide

theorem SubType.runs {bs : Bytes} {t : SubType} (h : BSubType bs t) :
    Runs (R := R) SubType.decode bs t := by
  cases h with
  | @final b1 b2 xs ct h1 h2 =>
    refine Runs.bind (b1 := [0x4F]) (b2 := b1 ++ b2) (Runs.mapErr Runs.readByte) ?_
    exact Runs.ite_pos (.inl rfl) (Runs.bind (Runs.mapErr (list_runs (fun _ _ => TypeIdx.runs) h1))
      (Runs.bind_pure (f := fun ct => (⟨true, xs, ct⟩ : SubType)) (Runs.mapErr (CompType.runs h2))))
  | @«open» b1 b2 xs ct h1 h2 =>
    refine Runs.bind (b1 := [0x50]) (b2 := b1 ++ b2) (Runs.mapErr Runs.readByte) ?_
    exact Runs.ite_pos (.inr rfl) (Runs.bind (Runs.mapErr (list_runs (fun _ _ => TypeIdx.runs) h1))
      (Runs.bind_pure (f := fun ct => (⟨false, xs, ct⟩ : SubType)) (Runs.mapErr (CompType.runs h2))))
  | @comp bs ct h =>
    match bs, h with
    | [], h => exact absurd h BCompType.nonempty
    | b :: bs, h =>
      refine Runs.bind (b1 := [b]) (b2 := bs) (Runs.mapErr Runs.readByte) ?_
      have hb := BCompType.head h
      refine Runs.ite_neg (by rintro (rfl | rfl) <;> revert hb <;> decide) ?_
      exact Runs.bind_pure (f := fun ct => (⟨true, [], ct⟩ : SubType))
        (Runs.mapErr (Runs.withChain (CompType.runs h)))

theorem SubType.g : G 1 L (SubType.decode : Dec R _ _) (SubType.decode : Dec S _ _) := by
  refine G.bind (gmap G.readByte) (j := 0) (fun b => ?_) (by omega)
  refine G.ite (fun _ => ?_) fun _ => ?_
  · exact G.bind0 (G.mono (gmap (list_g fun _ _ => G.mono TypeIdx.g (by omega))) (by omega)) fun _ =>
      G.bind0 (G.mono (gmap CompType.g) (by omega)) fun _ => G.pure
  · exact G.bind0 (G.mono (gmap (G.withChain CompType.g)) (by omega)) fun _ => G.pure

theorem RecType.sound : Sound (R := R) RecType.decode BRecType := by
  refine Sound.bind (Sound.mapErr Sound.readByte) ?_
  rintro b _ rfl
  refine Sound.ite ?_ fun _ => ?_
  · rintro rfl
    exact Sound.bind (Sound.mapErr (list_sound SubType.sound)) fun t b h =>
      Sound.pure (by simpa using BRecType.group h)
  · exact Sound.bind (Sound.mapErr (Sound.withChain SubType.sound (fun _ => BSubType.nonempty)))
      fun t b h => Sound.pure (by simpa using BRecType.single h)

theorem BSubType.head {b : UInt8} {bs : Bytes} {t : SubType} (h : BSubType (b :: bs) t) :
    0x4F ≤ b.toNat ∧ b.toNat ≤ 0x60 := by
  cases h with
  | final => decide
  | «open» => decide
  | comp h => have := BCompType.head h; omega

theorem RecType.runs {bs : Bytes} {t : RecType} (h : BRecType bs t) :
    Runs (R := R) RecType.decode bs t := by
  cases h with
  | @group bs sts h =>
    refine Runs.bind (b1 := [0x4E]) (b2 := bs) (Runs.mapErr Runs.readByte) ?_
    exact Runs.ite_pos rfl (Runs.bind_pure (f := RecType.mk)
      (Runs.mapErr (list_runs (fun _ _ => SubType.runs) h)))
  | @single bs st h =>
    match bs, h with
    | [], h => exact absurd h BSubType.nonempty
    | b :: bs, h =>
      refine Runs.bind (b1 := [b]) (b2 := bs) (Runs.mapErr Runs.readByte) ?_
      have hb := BSubType.head h
      refine Runs.ite_neg (by rintro rfl; revert hb; decide) ?_
      exact Runs.bind_pure (f := fun st => (⟨[st]⟩ : RecType))
        (Runs.mapErr (Runs.withChain (SubType.runs h)))

theorem RecType.g : G 1 L (RecType.decode : Dec R _ _) (RecType.decode : Dec S _ _) := by
  refine G.bind (gmap G.readByte) (j := 0) (fun b => ?_) (by omega)
  refine G.ite (fun _ => ?_) fun _ => ?_
  · exact G.bind0 (G.mono (gmap (list_g fun _ _ => G.mono SubType.g (by omega))) (by omega))
      fun _ => G.pure
  · exact G.bind0 (G.mono (gmap (G.withChain SubType.g)) (by omega)) fun _ => G.pure

/-! ### Limits, memory, table, tag, external types -/

theorem limits_sound : Sound (R := R) parseLimits BLimits := by
  refine Sound.bind (Sound.mapErr Sound.readByte) ?_
  rintro b _ rfl
  refine Sound.ite ?_ fun _ => Sound.ite ?_ fun _ => Sound.ite ?_ fun _ => Sound.ite ?_ fun _ =>
    Sound.err
  · rintro rfl
    exact Sound.bind (Sound.mapErr decodeU64_sound) fun n b h =>
      Sound.pure (by simpa using BLimits.i32Min h)
  · rintro rfl
    exact Sound.bind (Sound.mapErr decodeU64_sound) fun n b h =>
      Sound.bind (Sound.mapErr decodeU64_sound) fun n b h' =>
      Sound.pure (by simpa using BLimits.i32MinMax h h')
  · rintro rfl
    exact Sound.bind (Sound.mapErr decodeU64_sound) fun n b h =>
      Sound.pure (by simpa using BLimits.i64Min h)
  · rintro rfl
    exact Sound.bind (Sound.mapErr decodeU64_sound) fun n b h =>
      Sound.bind (Sound.mapErr decodeU64_sound) fun n b h' =>
      Sound.pure (by simpa using BLimits.i64MinMax h h')

theorem limits_runs {bs : Bytes} {t : Limits} (h : BLimits bs t) :
    Runs (R := R) parseLimits bs t := by
  cases h with
  | @i32Min b n h =>
    refine Runs.bind (b1 := [0x00]) (b2 := b) (Runs.mapErr Runs.readByte) ?_
    exact Runs.ite_pos rfl (Runs.bind_pure (f := fun n => (⟨.I32, n, none⟩ : Limits))
      (Runs.mapErr (decodeU64_runs h)))
  | @i32MinMax b1 b2 n m h1 h2 =>
    refine Runs.bind (b1 := [0x01]) (b2 := b1 ++ b2) (Runs.mapErr Runs.readByte) ?_
    exact Runs.ite_neg (by decide) (Runs.ite_pos rfl (Runs.bind (Runs.mapErr (decodeU64_runs h1))
      (Runs.bind_pure (f := fun m => (⟨.I32, n, some m⟩ : Limits)) (Runs.mapErr (decodeU64_runs h2)))))
  | @i64Min b n h =>
    refine Runs.bind (b1 := [0x04]) (b2 := b) (Runs.mapErr Runs.readByte) ?_
    exact Runs.ite_neg (by decide) (Runs.ite_neg (by decide) (Runs.ite_pos rfl
      (Runs.bind_pure (f := fun n => (⟨.I64, n, none⟩ : Limits)) (Runs.mapErr (decodeU64_runs h)))))
  | @i64MinMax b1 b2 n m h1 h2 =>
    refine Runs.bind (b1 := [0x05]) (b2 := b1 ++ b2) (Runs.mapErr Runs.readByte) ?_
    exact Runs.ite_neg (by decide) (Runs.ite_neg (by decide) (Runs.ite_neg (by decide)
      (Runs.ite_pos rfl (Runs.bind (Runs.mapErr (decodeU64_runs h1)) (Runs.bind_pure
      (f := fun m => (⟨.I64, n, some m⟩ : Limits)) (Runs.mapErr (decodeU64_runs h2)))))))

theorem limits_g : G 1 L (parseLimits : Dec R _ _) (parseLimits : Dec S _ _) := by
  have h : ∀ (b : Bool) (t : AddrType) (L : Nat),
      G 0 L (parseLimitsRest b t : Dec R _ _) (parseLimitsRest b t : Dec S _ _) := by
    intro b t L
    refine G.bind0 (G.mono (gmap decodeU64_g) (by omega)) fun n => ?_
    exact G.ite (fun _ => G.bind0 (G.mono (gmap decodeU64_g) (by omega)) fun _ => G.pure) fun _ => G.pure
  refine G.bind (gmap G.readByte) (j := 0) (fun b => ?_) (by omega)
  exact G.ite (fun _ => h _ _ _) fun _ => G.ite (fun _ => h _ _ _) fun _ =>
    G.ite (fun _ => h _ _ _) fun _ => G.ite (fun _ => h _ _ _) fun _ => G.err

theorem memType_sound : Sound (R := R) parseMemType BMemType :=
  Sound.bind (Sound.mapErr limits_sound) fun t b h => Sound.pure (by simpa [BMemType] using h)
theorem memType_runs {bs : Bytes} {t : MemType} (h : BMemType bs t) :
    Runs (R := R) parseMemType bs t :=
  Runs.bind_pure (f := MemType.mk) (Runs.mapErr (limits_runs h))
theorem memType_g : G 1 L (parseMemType : Dec R _ _) (parseMemType : Dec S _ _) :=
  G.bind (gmap limits_g) (fun _ => G.pure) (by omega)

theorem TableType.sound : Sound (R := R) TableType.decode BTableType :=
  Sound.bind (Sound.mapErr RefType.sound) fun t b h =>
    Sound.bind (Sound.mapErr limits_sound) fun l b' h' =>
    Sound.pure (by simpa using BTableType.mk h h')
theorem TableType.runs {bs : Bytes} {t : TableType} (h : BTableType bs t) :
    Runs (R := R) TableType.decode bs t := by
  cases h with
  | mk h1 h2 =>
    exact Runs.bind (Runs.mapErr (RefType.runs h1)) (Runs.bind_pure (Runs.mapErr (limits_runs h2)))
theorem TableType.g : G 1 L (TableType.decode : Dec R _ _) (TableType.decode : Dec S _ _) :=
  G.bind (gmap RefType.g) (j := 0) (fun _ => G.bind0 (G.mono (gmap limits_g) (by omega))
    fun _ => G.pure) (by omega)

theorem TagType.sound : Sound (R := R) TagType.decode BTagType := by
  refine Sound.bind (Sound.mapErr Sound.readByte) ?_
  rintro b _ rfl
  refine Sound.ite (fun _ => Sound.err) fun hb => ?_
  have hb : b = 0x00 := Decidable.not_not.1 hb
  subst hb
  exact Sound.bind (Sound.mapErr TypeIdx.sound) fun x b h =>
    Sound.pure (by simpa using BTagType.mk h)
theorem TagType.runs {bs : Bytes} {t : TagType} (h : BTagType bs t) :
    Runs (R := R) TagType.decode bs t := by
  cases h with
  | @mk bs x h =>
    refine Runs.bind (b1 := [0x00]) (b2 := bs) (Runs.mapErr Runs.readByte) ?_
    exact Runs.ite_neg (by decide) (Runs.bind_pure (f := TagType.mk) (Runs.mapErr (TypeIdx.runs h)))
theorem TagType.g : G 1 L (TagType.decode : Dec R _ _) (TagType.decode : Dec S _ _) := by
  refine G.bind (gmap G.readByte) (j := 0) (fun b => ?_) (by omega)
  exact G.ite (fun _ => G.err) fun _ => G.bind0 (G.mono (gmap TypeIdx.g) (by omega)) fun _ => G.pure

theorem ExternType.sound : Sound (R := R) ExternType.decode BExternType := by
  refine Sound.bind (Sound.mapErr Sound.readByte) ?_
  rintro b _ rfl
  refine Sound.ite ?_ fun _ => Sound.ite ?_ fun _ => Sound.ite ?_ fun _ => Sound.ite ?_ fun _ =>
    Sound.ite ?_ fun _ => Sound.err
  · rintro rfl
    exact Sound.bind (Sound.mapErr TypeIdx.sound) fun x b h =>
      Sound.pure (by simpa using BExternType.func h)
  · rintro rfl
    exact Sound.bind (Sound.mapErr TableType.sound) fun x b h =>
      Sound.pure (by simpa using BExternType.table h)
  · rintro rfl
    exact Sound.bind (Sound.mapErr memType_sound) fun x b h =>
      Sound.pure (by simpa using BExternType.mem h)
  · rintro rfl
    exact Sound.bind (Sound.mapErr GlobalType.sound) fun x b h =>
      Sound.pure (by simpa using BExternType.global h)
  · rintro rfl
    exact Sound.bind (Sound.mapErr TagType.sound) fun x b h =>
      Sound.pure (by simpa using BExternType.tag h)

theorem ExternType.runs {bs : Bytes} {t : ExternType} (h : BExternType bs t) :
    Runs (R := R) ExternType.decode bs t := by
  cases h with
  | @func bs x h =>
    refine Runs.bind (b1 := [0x00]) (b2 := bs) (Runs.mapErr Runs.readByte) ?_
    exact Runs.ite_pos rfl (Runs.bind_pure (Runs.mapErr (TypeIdx.runs h)))
  | @table bs x h =>
    refine Runs.bind (b1 := [0x01]) (b2 := bs) (Runs.mapErr Runs.readByte) ?_
    exact Runs.ite_neg (by decide) (Runs.ite_pos rfl (Runs.bind_pure (Runs.mapErr (TableType.runs h))))
  | @mem bs x h =>
    refine Runs.bind (b1 := [0x02]) (b2 := bs) (Runs.mapErr Runs.readByte) ?_
    exact Runs.ite_neg (by decide) (Runs.ite_neg (by decide) (Runs.ite_pos rfl
      (Runs.bind_pure (Runs.mapErr (memType_runs h)))))
  | @global bs x h =>
    refine Runs.bind (b1 := [0x03]) (b2 := bs) (Runs.mapErr Runs.readByte) ?_
    exact Runs.ite_neg (by decide) (Runs.ite_neg (by decide) (Runs.ite_neg (by decide)
      (Runs.ite_pos rfl (Runs.bind_pure (Runs.mapErr (GlobalType.runs h))))))
  | @tag bs x h =>
    refine Runs.bind (b1 := [0x04]) (b2 := bs) (Runs.mapErr Runs.readByte) ?_
    exact Runs.ite_neg (by decide) (Runs.ite_neg (by decide) (Runs.ite_neg (by decide)
      (Runs.ite_neg (by decide) (Runs.ite_pos rfl (Runs.bind_pure (Runs.mapErr (TagType.runs h)))))))

theorem ExternType.g : G 1 L (ExternType.decode : Dec R _ _) (ExternType.decode : Dec S _ _) := by
  refine G.bind (gmap G.readByte) (j := 0) (fun b => ?_) (by omega)
  refine G.ite (fun _ => ?_) fun _ => G.ite (fun _ => ?_) fun _ => G.ite (fun _ => ?_) fun _ =>
    G.ite (fun _ => ?_) fun _ => G.ite (fun _ => ?_) fun _ => G.err
  · exact G.bind0 (G.mono (gmap TypeIdx.g) (by omega)) fun _ => G.pure
  · exact G.bind0 (G.mono (gmap TableType.g) (by omega)) fun _ => G.pure
  · exact G.bind0 (G.mono (gmap memType_g) (by omega)) fun _ => G.pure
  · exact G.bind0 (G.mono (gmap GlobalType.g) (by omega)) fun _ => G.pure
  · exact G.bind0 (G.mono (gmap TagType.g) (by omega)) fun _ => G.pure

end
end Wadec
