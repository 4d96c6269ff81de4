import Verif.Proof.LebErr

/-! C01–C07: integers.  All theorems are about an arbitrary reader `R` (`LawfulRead`), which covers
the user's reader in whatever way it fragments its bytes, and `take`/`chain` of any such reader. -/

namespace Wadec

open LawfulRead Spec

theorem Decodes.of {R ε α : Type} [LawfulRead R] {d : Dec R ε α} {B : Bytes → α → Prop}
    (hs : Sound d B) (hr : ∀ bs v, B bs v → Runs d bs v) : Decodes d B := by
  refine ⟨fun r v r' h => ?_, fun r bs rest v hb h => ?_⟩
  · obtain ⟨bs, ha, hb⟩ := hs r v r' h
    exact ⟨bs, hb, adv_avail ha, adv_fin ha⟩
  · obtain ⟨r', h', ha⟩ := hr bs v hb r rest h
    refine ⟨r', h', ?_, adv_fin ha⟩
    have := adv_avail ha
    rw [h] at this
    exact (List.append_cancel_left this).symm

section
variable {R : Type} [LawfulRead R]

/-- C01. -/
theorem c01_u32 : Decodes (decodeU32 : Dec R _ _) BU32 :=
  Decodes.of decodeU32_sound fun _ _ => decodeU32_runs

/-- C01 in closed form: `decode_u32` returns `v` on an input exactly if the input starts with at
most five bytes that are terminated and stand for `v`. -/
theorem c01_u32_closed (r : R) (v : UInt32) :
    (∃ r', decodeU32 r = (.ok v, r')) ↔
      ∃ bs rest, avail r = bs ++ rest ∧ Terminated bs ∧ bs.length ≤ 5 ∧ uleb bs = v.toNat := by
  constructor
  · rintro ⟨r', h⟩
    obtain ⟨bs, hb, ha, _⟩ := (c01_u32 (R := R)).1 r v r' h
    obtain ⟨h1, h2, h3, _⟩ := (BU_closed (by omega)).1 hb
    exact ⟨bs, _, ha, h1, by omega, h3.symm⟩
  · rintro ⟨bs, rest, ha, h1, h2, h3⟩
    obtain ⟨r', h, _⟩ := (c01_u32 (R := R)).2 r bs rest v
      ((BU_closed (by omega)).2 ⟨h1, by omega, h3.symm, UInt32.toNat_lt v⟩) ha
    exact ⟨r', h⟩

/-- C02. -/
theorem c02_u64 : Decodes (decodeU64 : Dec R _ _) BU64 :=
  Decodes.of decodeU64_sound fun _ _ => decodeU64_runs

theorem c02_u64_closed (r : R) (v : UInt64) :
    (∃ r', decodeU64 r = (.ok v, r')) ↔
      ∃ bs rest, avail r = bs ++ rest ∧ Terminated bs ∧ bs.length ≤ 10 ∧ uleb bs = v.toNat := by
  constructor
  · rintro ⟨r', h⟩
    obtain ⟨bs, hb, ha, _⟩ := (c02_u64 (R := R)).1 r v r' h
    obtain ⟨h1, h2, h3, _⟩ := (BU_closed (by omega)).1 hb
    exact ⟨bs, _, ha, h1, by omega, h3.symm⟩
  · rintro ⟨bs, rest, ha, h1, h2, h3⟩
    obtain ⟨r', h, _⟩ := (c02_u64 (R := R)).2 r bs rest v
      ((BU_closed (by omega)).2 ⟨h1, by omega, h3.symm, UInt64.toNat_lt v⟩) ha
    exact ⟨r', h⟩

/-- C03. -/
theorem c03_i32 : Decodes (decodeI32 : Dec R _ _) BI32 :=
  Decodes.of decodeI32_sound fun _ _ => decodeI32_runs

theorem c03_i32_closed (r : R) (v : Int32) :
    (∃ r', decodeI32 r = (.ok v, r')) ↔
      ∃ bs rest, avail r = bs ++ rest ∧ Terminated bs ∧ bs.length ≤ 5 ∧ sleb bs = v.toInt := by
  constructor
  · rintro ⟨r', h⟩
    obtain ⟨bs, hb, ha, _⟩ := (c03_i32 (R := R)).1 r v r' h
    obtain ⟨h1, h2, h3, _⟩ := (BS_closed (by omega)).1 hb
    exact ⟨bs, _, ha, h1, by omega, h3.symm⟩
  · rintro ⟨bs, rest, ha, h1, h2, h3⟩
    obtain ⟨r', h, _⟩ := (c03_i32 (R := R)).2 r bs rest v
      ((BS_closed (by omega)).2 ⟨h1, by omega, h3.symm, Int32.le_toInt v, Int32.toInt_lt v⟩) ha
    exact ⟨r', h⟩

/-- C04. -/
theorem c04_i64 : Decodes (decodeI64 : Dec R _ _) BI64 :=
  Decodes.of decodeI64_sound fun _ _ => decodeI64_runs

theorem c04_i64_closed (r : R) (v : Int64) :
    (∃ r', decodeI64 r = (.ok v, r')) ↔
      ∃ bs rest, avail r = bs ++ rest ∧ Terminated bs ∧ bs.length ≤ 10 ∧ sleb bs = v.toInt := by
  constructor
  · rintro ⟨r', h⟩
    obtain ⟨bs, hb, ha, _⟩ := (c04_i64 (R := R)).1 r v r' h
    obtain ⟨h1, h2, h3, _⟩ := (BS_closed (by omega)).1 hb
    exact ⟨bs, _, ha, h1, by omega, h3.symm⟩
  · rintro ⟨bs, rest, ha, h1, h2, h3⟩
    obtain ⟨r', h, _⟩ := (c04_i64 (R := R)).2 r bs rest v
      ((BS_closed (by omega)).2 ⟨h1, by omega, h3.symm, Int64.le_toInt v, Int64.toInt_lt v⟩) ha
    exact ⟨r', h⟩

/-- C05. -/
theorem c05_s33 : Decodes (decodeS33 : Dec R _ _) BS33 :=
  Decodes.of decodeS33_sound fun _ _ => decodeS33_runs

theorem c05_s33_closed (r : R) (v : Int64) :
    (∃ r', decodeS33 r = (.ok v, r')) ↔
      ∃ bs rest, avail r = bs ++ rest ∧ Terminated bs ∧ bs.length ≤ 5 ∧ sleb bs = v.toInt ∧
        -2 ^ 32 ≤ v.toInt ∧ v.toInt < 2 ^ 32 := by
  constructor
  · rintro ⟨r', h⟩
    obtain ⟨bs, hb, ha, _⟩ := (c05_s33 (R := R)).1 r v r' h
    obtain ⟨h1, h2, h3, h4⟩ := (BS_closed (by omega)).1 hb
    exact ⟨bs, _, ha, h1, by omega, h3.symm, h4⟩
  · rintro ⟨bs, rest, ha, h1, h2, h3, h4⟩
    obtain ⟨r', h, _⟩ := (c05_s33 (R := R)).2 r bs rest v
      ((BS_closed (by omega)).2 ⟨h1, by omega, h3.symm, h4⟩) ha
    exact ⟨r', h⟩

/-- C05: a decoded non-negative `s33` fits the `u32` it is stored in. -/
theorem c05_s33_fits {r r' : R} {v : Int64} (h : decodeS33 r = (.ok v, r')) (h0 : 0 ≤ v.toInt) :
    ∃ x : UInt32, (x.toNat : Int) = v.toInt := by
  obtain ⟨bs, _, _, _, _, _, _, h5⟩ := (c05_s33_closed r v).1 ⟨r', h⟩
  exact ⟨UInt32.ofNat v.toInt.toNat, by rw [UInt32.toNat_ofNat', Nat.mod_eq_of_lt (by omega)]; omega⟩

/-- C06. -/
theorem c06_u32 : Classifies (decodeU32 : Dec R _ _) 5 .Io .RepresentationTooLong
    .TooLarge (fun bs => uleb bs < 2 ^ 32) := decodeU32_classifies
theorem c06_u64 : Classifies (decodeU64 : Dec R _ _) 10 .Io .RepresentationTooLong
    .TooLarge (fun bs => uleb bs < 2 ^ 64) := decodeU64_classifies
theorem c06_i32 : Classifies (decodeI32 : Dec R _ _) 5 .Io .RepresentationTooLong
    .TooLarge (fun bs => -2 ^ 31 ≤ sleb bs ∧ sleb bs < 2 ^ 31) := decodeI32_classifies
theorem c06_i64 : Classifies (decodeI64 : Dec R _ _) 10 .Io .RepresentationTooLong
    .IncorrectSignExtension (fun bs => -2 ^ 63 ≤ sleb bs ∧ sleb bs < 2 ^ 63) :=
  decodeI64_classifies
theorem c06_s33 : Classifies (decodeS33 : Dec R _ _) 5 .Io .RepresentationTooLong
    .IncorrectSignExtension (fun bs => -2 ^ 32 ≤ sleb bs ∧ sleb bs < 2 ^ 32) :=
  decodeS33_classifies

end

/-- C07: the encodings of a `u32` are its `k`-byte encodings for every `k` from the smallest that
has room for it up to five — no fewer and no others.  (With C01: each of them, followed by
anything, decodes to the value, leaving what follows.) -/
theorem c07_u32 (v : UInt32) (bs : Bytes) :
    BU32 bs v ↔ ∃ k, 1 ≤ k ∧ k ≤ 5 ∧ v.toNat < 2 ^ (7 * k) ∧ bs = uEnc k v.toNat := by
  unfold BU32
  rw [BU_enc (by omega) (UInt32.toNat_lt v)]
  exact ⟨fun ⟨k, h1, h2, h3⟩ => ⟨k, h1, by omega, h3⟩, fun ⟨k, h1, h2, h3⟩ => ⟨k, h1, by omega, h3⟩⟩

theorem c07_u64 (v : UInt64) (bs : Bytes) :
    BU64 bs v ↔ ∃ k, 1 ≤ k ∧ k ≤ 10 ∧ v.toNat < 2 ^ (7 * k) ∧ bs = uEnc k v.toNat := by
  unfold BU64
  rw [BU_enc (by omega) (UInt64.toNat_lt v)]
  exact ⟨fun ⟨k, h1, h2, h3⟩ => ⟨k, h1, by omega, h3⟩, fun ⟨k, h1, h2, h3⟩ => ⟨k, h1, by omega, h3⟩⟩

theorem c07_i32 (v : Int32) (bs : Bytes) :
    BI32 bs v ↔ ∃ k, 1 ≤ k ∧ k ≤ 5 ∧ -2 ^ (7 * k - 1) ≤ v.toInt ∧ v.toInt < 2 ^ (7 * k - 1) ∧
      bs = sEnc k v.toInt := by
  unfold BI32
  rw [BS_enc (by omega) (Int32.le_toInt v) (Int32.toInt_lt v)]
  exact ⟨fun ⟨k, h1, h2, h3⟩ => ⟨k, h1, by omega, h3⟩, fun ⟨k, h1, h2, h3⟩ => ⟨k, h1, by omega, h3⟩⟩

theorem c07_i64 (v : Int64) (bs : Bytes) :
    BI64 bs v ↔ ∃ k, 1 ≤ k ∧ k ≤ 10 ∧ -2 ^ (7 * k - 1) ≤ v.toInt ∧ v.toInt < 2 ^ (7 * k - 1) ∧
      bs = sEnc k v.toInt := by
  unfold BI64
  rw [BS_enc (by omega) (Int64.le_toInt v) (Int64.toInt_lt v)]
  exact ⟨fun ⟨k, h1, h2, h3⟩ => ⟨k, h1, by omega, h3⟩, fun ⟨k, h1, h2, h3⟩ => ⟨k, h1, by omega, h3⟩⟩

theorem c07_s33 (v : Int64) (h1 : -2 ^ 32 ≤ v.toInt) (h2 : v.toInt < 2 ^ 32) (bs : Bytes) :
    BS33 bs v ↔ ∃ k, 1 ≤ k ∧ k ≤ 5 ∧ -2 ^ (7 * k - 1) ≤ v.toInt ∧ v.toInt < 2 ^ (7 * k - 1) ∧
      bs = sEnc k v.toInt := by
  unfold BS33
  rw [BS_enc (by omega) h1 h2]
  exact ⟨fun ⟨k, h1, h2, h3⟩ => ⟨k, h1, by omega, h3⟩, fun ⟨k, h1, h2, h3⟩ => ⟨k, h1, by omega, h3⟩⟩

/-- C07, stated on the decoder. -/
theorem c07_u32_decodes {R : Type} [LawfulRead R] (r : R) (v : UInt32) (k : Nat) (rest : Bytes)
    (h1 : 1 ≤ k) (h2 : k ≤ 5) (h3 : v.toNat < 2 ^ (7 * k)) (ha : avail r = uEnc k v.toNat ++ rest) :
    ∃ r', decodeU32 r = (.ok v, r') ∧ avail r' = rest ∧ fin r' = fin r :=
  c01_u32.2 r _ rest v ((c07_u32 v _).2 ⟨k, h1, h2, h3, rfl⟩) ha

theorem c07_u64_decodes {R : Type} [LawfulRead R] (r : R) (v : UInt64) (k : Nat) (rest : Bytes)
    (h1 : 1 ≤ k) (h2 : k ≤ 10) (h3 : v.toNat < 2 ^ (7 * k)) (ha : avail r = uEnc k v.toNat ++ rest) :
    ∃ r', decodeU64 r = (.ok v, r') ∧ avail r' = rest ∧ fin r' = fin r :=
  c02_u64.2 r _ rest v ((c07_u64 v _).2 ⟨k, h1, h2, h3, rfl⟩) ha

theorem c07_i32_decodes {R : Type} [LawfulRead R] (r : R) (v : Int32) (k : Nat) (rest : Bytes)
    (h1 : 1 ≤ k) (h2 : k ≤ 5) (h3 : -2 ^ (7 * k - 1) ≤ v.toInt) (h4 : v.toInt < 2 ^ (7 * k - 1))
    (ha : avail r = sEnc k v.toInt ++ rest) :
    ∃ r', decodeI32 r = (.ok v, r') ∧ avail r' = rest ∧ fin r' = fin r :=
  c03_i32.2 r _ rest v ((c07_i32 v _).2 ⟨k, h1, h2, h3, h4, rfl⟩) ha

theorem c07_i64_decodes {R : Type} [LawfulRead R] (r : R) (v : Int64) (k : Nat) (rest : Bytes)
    (h1 : 1 ≤ k) (h2 : k ≤ 10) (h3 : -2 ^ (7 * k - 1) ≤ v.toInt) (h4 : v.toInt < 2 ^ (7 * k - 1))
    (ha : avail r = sEnc k v.toInt ++ rest) :
    ∃ r', decodeI64 r = (.ok v, r') ∧ avail r' = rest ∧ fin r' = fin r :=
  c04_i64.2 r _ rest v ((c07_i64 v _).2 ⟨k, h1, h2, h3, h4, rfl⟩) ha

theorem c07_s33_decodes {R : Type} [LawfulRead R] (r : R) (v : Int64) (k : Nat) (rest : Bytes)
    (h0 : -2 ^ 32 ≤ v.toInt) (h0' : v.toInt < 2 ^ 32)
    (h1 : 1 ≤ k) (h2 : k ≤ 5) (h3 : -2 ^ (7 * k - 1) ≤ v.toInt) (h4 : v.toInt < 2 ^ (7 * k - 1))
    (ha : avail r = sEnc k v.toInt ++ rest) :
    ∃ r', decodeS33 r = (.ok v, r') ∧ avail r' = rest ∧ fin r' = fin r :=
  c05_s33.2 r _ rest v ((c07_s33 v h0 h0' _).2 ⟨k, h1, h2, h3, h4, rfl⟩) ha

/-! ### Concrete cases -/

-- C01: a padded encoding of 624485, followed by other bytes, delivered in fragments.
example : BU32 [0xE5, 0x8E, 0xA6, 0x80, 0x00] 624485 := by
  rw [c07_u32]; exact ⟨5, by decide⟩
example : (decodeU32 (⟨[.data [0xE5], .fail .interrupted, .data [0x8E, 0x26, 0x99]], []⟩ : Src)).1 =
    .ok 624485 := by rfl
-- C02: the largest u64
example : BU64 (List.replicate 9 0xFF ++ [0x01]) 0xFFFFFFFFFFFFFFFF := by
  rw [c07_u64]; exact ⟨10, by decide⟩
-- C03, C04: negative numbers
example : BI32 [0xC0, 0xBB, 0x78] (-123456) := by rw [c07_i32]; exact ⟨3, by decide⟩
example : BI64 (List.replicate 9 0x80 ++ [0x7F]) Int64.minValue := by
  rw [c07_i64]; exact ⟨10, by decide⟩
-- C05: the largest type index
example : BS33 [0xFF, 0xFF, 0xFF, 0xFF, 0x0F] 0xFFFFFFFF := by
  rw [c07_s33 _ (by decide) (by decide)]; exact ⟨5, by decide⟩
-- C06: each error occurs
example : (decodeU32 (Src.ofBytes [0x80, 0x80])).1 = .err (.Io .unexpectedEof) := by rfl
example : (decodeU32 (Src.ofBytes [0x80, 0x80, 0x80, 0x80, 0x80, 0x00])).1 =
    .err .RepresentationTooLong := by rfl
example : (decodeU32 (Src.ofBytes [0x80, 0x80, 0x80, 0x80, 0x10])).1 = .err .TooLarge := by rfl
example : (decodeS33 (Src.ofBytes [0x80, 0x80, 0x80, 0x80, 0x30])).1 =
    .err .IncorrectSignExtension := by rfl

end Wadec
