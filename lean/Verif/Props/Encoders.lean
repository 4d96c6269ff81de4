import Verif.Props.Integers
import Verif.Proof.Encoders
import Verif.Proof.Unambig

/-! C86: what the unit tests of src/decode/integer.rs check on samples, for all values. -/

namespace Wadec

open LawfulRead Spec

section
variable {R : Type} [LawfulRead R]

/-- C86: `read_u32_decodes_simple_values`, for every value, and followed by anything. -/
theorem c86_u32 (v : UInt32) (r : R) (rest : Bytes) (ha : avail r = encodeU32 v ++ rest) :
    ∃ r', decodeU32 r = (.ok v, r') ∧ avail r' = rest := by
  obtain ⟨k, ⟨h1, h2, h3⟩, he⟩ := encodeU32_enc v
  have hk : k ≤ 5 := h3 5 (by omega) (by have := UInt32.toNat_lt v; omega)
  obtain ⟨r', h, h', _⟩ := c07_u32_decodes r v k rest h1 hk h2 (by rw [ha, he])
  exact ⟨r', h, h'⟩

/-- C86: `read_u64_decodes_simple_values`, for every value. -/
theorem c86_u64 (v : UInt64) (r : R) (rest : Bytes) (ha : avail r = encodeU64 v ++ rest) :
    ∃ r', decodeU64 r = (.ok v, r') ∧ avail r' = rest := by
  obtain ⟨k, ⟨h1, h2, h3⟩, he⟩ := encodeU64_enc v
  have hk : k ≤ 10 := h3 10 (by omega) (by have := UInt64.toNat_lt v; omega)
  obtain ⟨r', h, h', _⟩ := c07_u64_decodes r v k rest h1 hk h2 (by rw [ha, he])
  exact ⟨r', h, h'⟩

/-- C86: `read_i64_decodes_edge_values`, for every value. -/
theorem c86_i64 (v : Int64) (r : R) (rest : Bytes) (ha : avail r = encodeSleb64 v ++ rest) :
    ∃ r', decodeI64 r = (.ok v, r') ∧ avail r' = rest := by
  obtain ⟨k, ⟨h1, ⟨h2, h2'⟩, h3⟩, he⟩ := encodeSleb64_enc v
  have hk : k ≤ 10 := h3 10 (by omega) (by have := Int64.le_toInt v; omega) (by have := Int64.toInt_lt v; omega)
  obtain ⟨r', h, h', _⟩ := c07_i64_decodes r v k rest h1 hk h2 h2' (by rw [ha, he])
  exact ⟨r', h, h'⟩

/-- C86: `read_i32_decodes_edge_values`, for every value (`value.into()` widens it). -/
theorem c86_i32 (v : Int32) (r : R) (rest : Bytes) (ha : avail r = encodeSleb64 v.toInt64 ++ rest) :
    ∃ r', decodeI32 r = (.ok v, r') ∧ avail r' = rest := by
  obtain ⟨k, ⟨h1, ⟨h2, h2'⟩, h3⟩, he⟩ := encodeSleb64_enc v.toInt64
  rw [Int32.toInt_toInt64] at h2 h2' h3 he
  have hk : k ≤ 5 := h3 5 (by omega) (by have := Int32.le_toInt v; omega) (by have := Int32.toInt_lt v; omega)
  obtain ⟨r', h, h', _⟩ := c07_i32_decodes r v k rest h1 hk h2 h2' (by rw [ha, he])
  exact ⟨r', h, h'⟩

/-- C86: `read_s33_decodes_edge_values`, for every value of 33 bits. -/
theorem c86_s33 (v : Int64) (hl : -2 ^ 32 ≤ v.toInt) (hu : v.toInt < 2 ^ 32) (r : R) (rest : Bytes)
    (ha : avail r = encodeSleb64 v ++ rest) : ∃ r', decodeS33 r = (.ok v, r') ∧ avail r' = rest := by
  obtain ⟨k, ⟨h1, ⟨h2, h2'⟩, h3⟩, he⟩ := encodeSleb64_enc v
  have hk : k ≤ 5 := h3 5 (by omega) (by omega) (by omega)
  obtain ⟨r', h, h', _⟩ := c07_s33_decodes r v k rest hl hu h1 hk h2 h2' (by rw [ha, he])
  exact ⟨r', h, h'⟩

theorem take_allCont {bs : Bytes} {n : Nat} (h : Terminated bs) (hn : n < bs.length) : AllCont (bs.take n) := by
  obtain ⟨cs, b, rfl, hc, _⟩ := h
  intro x hx
  rw [List.length_append, List.length_singleton] at hn
  rw [List.take_append_of_le_length (by omega)] at hx
  exact hc x (List.mem_of_mem_take hx)

/-- What is encoded is terminated and stands for the value. -/
theorem sleb64_stands (v : Int64) : Terminated (encodeSleb64 v) ∧ sleb (encodeSleb64 v) = v.toInt ∧
    LeastS (encodeSleb64 v).length v.toInt := by
  obtain ⟨k, hk, he⟩ := encodeSleb64_enc v
  have h3 := hk.2.2
  have hk' : k ≤ 10 := h3 10 (by omega) (by have := Int64.le_toInt v; omega) (by have := Int64.toInt_lt v; omega)
  have hb : BI64 (encodeSleb64 v) v := (c07_i64 v _).2 ⟨k, hk.1, hk', hk.2.1.1, hk.2.1.2, he⟩
  obtain ⟨a, _, b, _⟩ := (BS_closed (by omega)).1 hb
  refine ⟨a, b.symm, ?_⟩
  rw [he, sEnc_length]; exact hk

theorem leb64_stands (v : UInt64) : Terminated (encodeU64 v) ∧ uleb (encodeU64 v) = v.toNat ∧ LeastU (encodeU64 v).length v.toNat := by
  obtain ⟨k, hk, he⟩ := encodeU64_enc v
  have h3 := hk.2.2
  have hk' : k ≤ 10 := h3 10 (by omega) (by have := UInt64.toNat_lt v; omega)
  have hb : BU64 (encodeU64 v) v := (c07_u64 v _).2 ⟨k, hk.1, hk', hk.2.1, he⟩
  obtain ⟨a, _, b, _⟩ := (BU_closed (by omega)).1 hb
  refine ⟨a, b.symm, ?_⟩
  rw [he, uEnc_length]; exact hk

/-- C86: `read_i32_rejects_out_of_range_positive` and `_negative`, for every value out of range: too large if it fits into five bytes,
and otherwise too long. -/
theorem c86_i32_range (v : Int64) (hv : ¬ (-2 ^ 31 ≤ v.toInt ∧ v.toInt < 2 ^ 31)) (r : R) (rest : Bytes)
    (ha : avail r = encodeSleb64 v ++ rest) :
    ∃ r', decodeI32 r = (.err (if -2 ^ 34 ≤ v.toInt ∧ v.toInt < 2 ^ 34 then .TooLarge else .RepresentationTooLong), r') := by
  obtain ⟨ht, hs, hl⟩ := sleb64_stands v
  split
  · rename_i h
    refine (c06_i32.bad_iff r).2 ⟨_, rest, ha, ht, hl.2.2 5 (by omega) h.1 h.2, ?_⟩
    rw [hs]; exact hv
  · rename_i h
    have h6 : 5 < (encodeSleb64 v).length := by
      refine Nat.lt_of_not_le fun hle => h ?_
      have h' := hl.2.1
      have hm : (2 : Int) ^ (7 * (encodeSleb64 v).length - 1) ≤ 2 ^ 34 := by
        have : (2 : Nat) ^ (7 * (encodeSleb64 v).length - 1) ≤ 2 ^ 34 := Nat.pow_le_pow_right (by decide) (by omega)
        exact_mod_cast this
      omega
    refine (c06_i32.long_iff r).2 ⟨by rw [ha, List.length_append]; omega, ?_⟩
    rw [ha, List.take_append_of_le_length (by omega)]
    exact take_allCont ht h6

/-- C86: the same for 33-bit integers. -/
theorem c86_s33_range (v : Int64) (hv : ¬ (-2 ^ 32 ≤ v.toInt ∧ v.toInt < 2 ^ 32)) (r : R) (rest : Bytes)
    (ha : avail r = encodeSleb64 v ++ rest) : ∃ r', decodeS33 r =
      (.err (if -2 ^ 34 ≤ v.toInt ∧ v.toInt < 2 ^ 34 then .IncorrectSignExtension else .RepresentationTooLong), r') := by
  obtain ⟨ht, hs, hl⟩ := sleb64_stands v
  split
  · rename_i h
    refine (c06_s33.bad_iff r).2 ⟨_, rest, ha, ht, hl.2.2 5 (by omega) h.1 h.2, ?_⟩
    rw [hs]; exact hv
  · rename_i h
    have h6 : 5 < (encodeSleb64 v).length := by
      refine Nat.lt_of_not_le fun hle => h ?_
      have h' := hl.2.1
      have hm : (2 : Int) ^ (7 * (encodeSleb64 v).length - 1) ≤ 2 ^ 34 := by
        have : (2 : Nat) ^ (7 * (encodeSleb64 v).length - 1) ≤ 2 ^ 34 := Nat.pow_le_pow_right (by decide) (by omega)
        exact_mod_cast this
      omega
    refine (c06_s33.long_iff r).2 ⟨by rw [ha, List.length_append]; omega, ?_⟩
    rw [ha, List.take_append_of_le_length (by omega)]
    exact take_allCont ht h6

/-- C86: and for a 64-bit number read as a `u32`. -/
theorem c86_u32_range (v : UInt64) (hv : 2 ^ 32 ≤ v.toNat) (r : R) (rest : Bytes) (ha : avail r = encodeU64 v ++ rest) :
    ∃ r', decodeU32 r = (.err (if v.toNat < 2 ^ 35 then .TooLarge else .RepresentationTooLong), r') := by
  obtain ⟨ht, hs, hl⟩ := leb64_stands v
  split
  · rename_i h
    refine (c06_u32.bad_iff r).2 ⟨_, rest, ha, ht, hl.2.2 5 (by omega) h, ?_⟩
    rw [hs]; omega
  · rename_i h
    have h6 : 5 < (encodeU64 v).length := by
      refine Nat.lt_of_not_le fun hle => h ?_
      have h' := hl.2.1
      have hm : (2 : Nat) ^ (7 * (encodeU64 v).length) ≤ 2 ^ 35 := Nat.pow_le_pow_right (by decide) (by omega)
      omega
    refine (c06_u32.long_iff r).2 ⟨by rw [ha, List.length_append]; omega, ?_⟩
    rw [ha, List.take_append_of_le_length (by omega)]
    exact take_allCont ht h6

end

/-- C86: no encoding of a value is shorter than the one of these functions, and as short there is no other. -/
theorem c86_shortest (v : UInt32) (w : UInt64) (x : Int64) (bs : Bytes) :
    (BU32 bs v → (encodeU32 v).length ≤ bs.length ∧ (bs.length = (encodeU32 v).length → bs = encodeU32 v)) ∧
    (BU64 bs w → (encodeU64 w).length ≤ bs.length ∧ (bs.length = (encodeU64 w).length → bs = encodeU64 w)) ∧
    (BI64 bs x → (encodeSleb64 x).length ≤ bs.length ∧ (bs.length = (encodeSleb64 x).length → bs = encodeSleb64 x)) := by
  refine ⟨fun h => ?_, fun h => ?_, fun h => ?_⟩
  · obtain ⟨k, h1, _, h2, rfl⟩ := (c07_u32 v bs).1 h
    obtain ⟨j, hj, he⟩ := encodeU32_enc v
    rw [he, uEnc_length, uEnc_length]
    exact ⟨hj.2.2 k h1 h2, fun e => by rw [e]⟩
  · obtain ⟨k, h1, _, h2, rfl⟩ := (c07_u64 w bs).1 h
    obtain ⟨j, hj, he⟩ := encodeU64_enc w
    rw [he, uEnc_length, uEnc_length]
    exact ⟨hj.2.2 k h1 h2, fun e => by rw [e]⟩
  · obtain ⟨k, h1, _, h2, h3, rfl⟩ := (c07_i64 x bs).1 h
    obtain ⟨j, hj, he⟩ := encodeSleb64_enc x
    rw [he, sEnc_length, sEnc_length]
    exact ⟨hj.2.2 k h1 h2 h3, fun e => by rw [e]⟩

/-! ### Instances -/

example : encodeU32 624485 = [0xE5, 0x8E, 0x26] := by
  rw [encodeU32, encodeU32, encodeU32]; decide
example : encodeSleb64 (-123456) = [0xC0, 0xBB, 0x78] := by
  rw [encodeSleb64, encodeSleb64, encodeSleb64]; decide
/-- 2^31 is out of the range of `i32`, but fits into five bytes; 2^40 does not. -/
example : ∃ r', decodeI32 (Src.ofBytes (encodeSleb64 0x80000000 ++ [])) = (.err .TooLarge, r') :=
  c86_i32_range 0x80000000 (by decide) _ [] (avail_ofBytes _)
example : ∃ r', decodeI32 (Src.ofBytes (encodeSleb64 0x10000000000 ++ [])) = (.err .RepresentationTooLong, r') :=
  c86_i32_range 0x10000000000 (by decide) _ [] (avail_ofBytes _)

end Wadec
